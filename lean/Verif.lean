import Verif.Lemmas.Life
import Verif.Spec.Ledger
import Verif.Model.Life
import Verif.Props.C01
import Verif.Props.C01Rx
import Verif.Props.C02
import Verif.Props.C03
import Verif.Props.C14
import Verif.Props.C15
import Verif.Model.CpCtx
import Verif.Model.CpRun
import Verif.Model.CpHeap
import Verif.Lemmas.CpSend
import Verif.Lemmas.CpReply
import Verif.Lemmas.CpStep
import Verif.Lemmas.Phy
import Verif.Props.C07
import Verif.Props.C47
import Verif.Props.C48
import Verif.Props.C60
import Verif.Props.C61
import Verif.Props.C62
import Verif.Lemmas.PdDispatch
import Verif.Lemmas.PdSend
import Verif.Props.C33
import Verif.Lemmas.Deliver
import Verif.Props.C04
import Verif.Props.C35
import Verif.Props.C34
import Verif.Props.C36
import Verif.Props.C36Sc
import Verif.Props.C06
import Verif.Props.C08
import Verif.Props.C09
import Verif.Props.C11
import Verif.Props.C27
import Verif.Props.C26
import Verif.Props.C25
import Verif.Props.C23
import Verif.Props.C22
import Verif.Props.C17
import Verif.Props.C19
import Verif.Props.C29
import Verif.Props.C43
import Verif.Props.C39
import Verif.Props.C59
import Verif.Lemmas.CpFrame
import Verif.Lemmas.CpInv
import Verif.Lemmas.CpOut
import Verif.Lemmas.CpHear
import Verif.Lemmas.PdHear
import Verif.Lemmas.PdFile
import Verif.Spec.FileLog
import Verif.Lemmas.CpFile
import Verif.Lemmas.SendSc
import Verif.Lemmas.CpSendSc
import Verif.Lemmas.SampleFile
import Verif.Spec.Announce
import Verif.Lemmas.SampleCp
import Verif.Props.C55
import Verif.Props.C05
import Verif.Props.C44
import Verif.Props.C58
import Verif.Lemmas.CpTurn
import Verif.Spec.EventRead
import Verif.Lemmas.CpEvent
import Verif.Props.C56
import Verif.Lemmas.CpRead
import Verif.Props.C57
import Verif.Props.C42
import Verif.Props.C41
import Verif.Props.C12
import Verif.Lemmas.CpDeliver
import Verif.Lemmas.CpResend
import Verif.Lemmas.CpSess
import Verif.Props.C10
import Verif.Props.C13
import Verif.Props.C21
import Verif.Props.C24
import Verif.Props.C28
import Verif.Props.C18
import Verif.Props.C40
import Verif.Props.C51
import Verif.Props.C52
import Verif.Props.C53
import Verif.Props.C54
import Verif.Lemmas.SecRound
import Verif.Lemmas.SendAny
import Verif.Lemmas.System
import Verif.Lemmas.Lockstep
import Verif.Lemmas.Rounds
import Verif.Lemmas.Handshake
import Verif.Lemmas.HandshakeEnds
import Verif.Props.C16
import Verif.Props.C20
import Verif.Spec.CmdWire
import Verif.Lemmas.CmdWire
import Verif.Props.C30
import Verif.Props.C31
import Verif.Spec.Ident
import Verif.Lemmas.Exchange
import Verif.Lemmas.Ctx
import Verif.Lemmas.CtxSetup
import Verif.Lemmas.Trail
import Verif.Props.C32
import Verif.Props.C45
import Verif.Props.C46
import Verif.Spec.FileStore
import Verif.Spec.Handles
import Verif.Lemmas.Transfer
import Verif.Lemmas.TransferLink
import Verif.Props.C49
import Verif.Props.C49Span
import Verif.Props.C50
import Verif.Spec.Block
import Verif.Lemmas.DecodeFault
import Verif.Lemmas.SendFault
import Verif.Lemmas.PdFault
import Verif.Lemmas.PdSafe
import Verif.Lemmas.CpFault
import Verif.Lemmas.CpSafe
import Verif.Props.C37
import Verif.Props.C38
import Verif.Spec.Fips197
import Verif.Spec.Sealed
import Verif.Props.C63
import Verif.Props.C64
import Verif.Lemmas.Pause
import Verif.Lemmas.Meet
import Verif.Props.C09Cp
import Verif.Props.C65
import Verif.Props.C66
import Verif.Lemmas.CpBeat
import Verif.Props.C67
import Verif.Spec.Records
import Verif.Props.C68
import Verif.Props.C39Sc
import Verif.Lemmas.Repeat
import Verif.Props.C69
import Verif.Lemmas.Commission
import Verif.Props.C70
import Verif.Props.C71
import Verif.Props.C72
import Verif.Lemmas.Stale
import Verif.Lemmas.StalePd
import Verif.Props.C73
import Verif.Props.C74
import Verif.Props.C75
import Verif.Props.C76
import Verif.Props.C77
import Verif.Props.C78
import Verif.Props.C79
import Verif.Props.C80
import Verif.Props.C81
import Verif.Props.C82
import Verif.Props.C80Sc
import Verif.Model.AesMem
import Verif.Lemmas.AesMem
import Verif.Lemmas.AesCbc
import Verif.Spec.Cbc
import Verif.Props.C83
import Verif.Model.ScMem
import Verif.Lemmas.ScMem
import Verif.Model.PhyMem
import Verif.Model.Trace
import Verif.Model.KeyMem
import Verif.Model.OpenMem
import Verif.Model.CInt
import Verif.Model.Backend
import Verif.Lemmas.PhyMem
import Verif.Lemmas.OpenMem
import Verif.Lemmas.Trace
import Verif.Lemmas.KeyMem
import Verif.Props.C84
import Verif.Model.Random
import Verif.Props.C85
import Verif.Props.C86
import Verif.Props.C87
import Verif.Props.C88
import Verif.Props.C89
import Verif.Props.C90
import Verif.Props.C91
import Verif.Props.C92
import Verif.Props.C93
import Verif.Props.C94
import Verif.Props.C95
import Verif.Props.C96
import Verif.Props.C97
import Verif.Props.C98
import Verif.Props.C99
import Verif.Props.C100
import Verif.Props.C101
import Verif.Props.C102
import Verif.Props.C103
import Verif.Props.C104
import Verif.Props.C105
import Verif.Props.C106

import Verif.Props.Base64
import Verif.Props.Numbers
import Verif.Props.Message
import Verif.Props.Spa
import Verif.Props.Cipher
import Verif.Props.Fko
import Verif.Props.Modes
import Verif.Props.Aes
import Verif.Props.Access
import Verif.Props.CmdCycle
import Verif.Props.Replay
import Verif.Props.Incoming
import Verif.Props.Http
import Verif.Props.Safe
import Verif.Props.Iptables
import Verif.Props.IptList
import Verif.Props.TcpServer
import Verif.Props.Extcmd
import Verif.Props.Nat
import Verif.Props.Prompt
import Verif.Props.Packet
import Verif.Props.LastArgs
import Verif.Props.Pf
import Verif.Props.Ipfw
import Verif.Props.Digest
import Verif.Props.AccessFile
import Verif.Props.Client
import Verif.Props.ClientRc
import Verif.Props.IptInit
import Verif.Props.SrvConf
import Verif.Props.SrvFlags
import Verif.Spec.Knock
import Verif.Lemmas.Knock
import Verif.Props.Knock
import Verif.Model.Daemon
import Verif.Spec.Daemon
import Verif.Lemmas.Leftovers
import Verif.Lemmas.Daemon
import Verif.Lemmas.DaemonRules
import Verif.Lemmas.DaemonDeeds
import Verif.Props.Daemon
import Verif.Spec.DaemonFile
import Verif.Props.DaemonFile
import Verif.Spec.DaemonNat
import Verif.Lemmas.IptAny
import Verif.Lemmas.DaemonNat
import Verif.Props.DaemonNat
import Verif.Props.DaemonCycle
import Verif.Model.Signals
import Verif.Props.Signals
import Verif.Model.PidFile
import Verif.Spec.PidFile
import Verif.Lemmas.PidFile
import Verif.Props.PidFile
import Verif.Spec.AccessAccept
import Verif.Lemmas.AccessAccept
import Verif.Props.AccessAccept
import Verif.Model.KeyGen
import Verif.Spec.KeyGen
import Verif.Lemmas.KeyGen
import Verif.Props.KeyGen
import Verif.Model.Firewalld
import Verif.Spec.Firewalld
import Verif.Lemmas.Firewalld
import Verif.Lemmas.FwdRequest
import Verif.Lemmas.FwdExpiry
import Verif.Lemmas.FwdInit
import Verif.Lemmas.FwdSession
import Verif.Props.Firewalld
import Verif.Props.FwdSession
import Verif.Model.Passwd
import Verif.Spec.Passwd
import Verif.Lemmas.Passwd
import Verif.Props.Passwd
import Verif.Model.Resolve
import Verif.Spec.Resolve
import Verif.Lemmas.Resolve
import Verif.Props.Resolve
import Verif.Model.Proc
import Verif.Spec.Proc
import Verif.Lemmas.Proc
import Verif.Props.Proc
import Verif.Model.Gpg
import Verif.Spec.Gpg
import Verif.Lemmas.Gpg
import Verif.Props.Gpg
import Verif.Spec.GpgSend
import Verif.Lemmas.GpgSend
import Verif.Props.GpgSend
import Verif.Props.KnockNat
import Verif.Model.Nfq
import Verif.Props.Nfq
import Verif.Props.NfqRules
import Verif.Model.Dbm
import Verif.Props.Dbm
import Verif.Model.Dump
import Verif.Spec.Dump
import Verif.Props.Dump
import Verif.Model.RunDir
import Verif.Props.RunDir
import Verif.Model.GpgLife
import Verif.Props.GpgLife
import Verif.Model.Stop
import Verif.Props.Stop
import Verif.Model.PfInit
import Verif.Spec.PfInit
import Verif.Props.PfInit
import Verif.Lemmas.NatAll
import Verif.Props.NatAll
import Verif.Props.SnatConf
import Verif.Model.FilePerms
import Verif.Spec.FilePerms
import Verif.Props.FilePerms
import Verif.Model.ServerMain
import Verif.Spec.ServerMain
import Verif.Props.ServerMain
import Verif.Model.KeyWipe
import Verif.Spec.KeyWipe
import Verif.Props.KeyWipe
import Verif.Model.SendPacket
import Verif.Spec.SendPacket
import Verif.Props.SendPacket

import Verif.Props.SrvConf
import Verif.Props.AccessFile

/-!
# Source NAT from the files on (C68, C79): what the files ask for and what comes of it
-/

namespace Fwknop.Props

open Fwknop Spec Res

/-- The chains that a configuration makes. -/
def chainsOf (r : Res SrvOpts) : Option (List FwChain) :=
  match r with
  | .ok o =>
    match fw_config_init o.config with
    | .ok chs => some chs
    | _ => none
  | _ => none

/-- The rules of a chain after a request, with the configuration of a text for fwknopd.conf and a stanza of a text for access.conf. -/
def rulesFrom (conf acc : Str) (sp : SpaData) (now : Int) (t c : Word) : Option (List Rule) :=
  match srvConfig (confFiles [(b!"/etc/fwknop/fwknopd.conf", conf)]) [], load_access { oneFile acc with nat_enabled := true } 20 (.file b!"access.conf") with
  | .ok o, .ok (e :: _) =>
    match fw_config_init o.config with
    | .ok chs => rulesOf (process_spa_request (fwConfOf o) ipt e.st sp now ⟨chs, (builtin, [])⟩) t c
    | _ => none
  | _, _ => none

/-- Forwarding without ENABLE_IPT_SNAT. -/
def noSnatText : Str := b!"ENABLE_IPT_FORWARDING Y\n"

/-- Forwarding with ENABLE_IPT_SNAT. -/
def snatText : Str := b!"ENABLE_IPT_FORWARDING Y\nENABLE_IPT_SNAT Y\n"

/-- A stanza whose source address is to be changed. -/
def snatStanzaText : Str := b!"SOURCE any\nKEY kk\nFORCE_NAT 10.0.0.5 22\nFORCE_SNAT 192.0.2.1\n"

/-- **C68 is false** of FORCE_SNAT without ENABLE_IPT_SNAT: both files are accepted and the access is granted, but the source is
not changed in any chain.  With ENABLE_IPT_SNAT it is. -/
theorem C68_false_force_snat_ignored :
    let run (conf : Str) := rulesFrom conf snatStanzaText natRequest 1000
    run noSnatText b!"filter" b!"FWKNOP_FORWARD" = some [forwardRule 6 b!"1.2.3.4" 22 1030 b!"ACCEPT"] ∧
      run noSnatText b!"nat" b!"FWKNOP_PREROUTING" = some [dnatRule 6 b!"1.2.3.4" b!"0.0.0.0/0" 2222 1030 b!"DNAT" b!"10.0.0.5" 22] ∧
      run noSnatText b!"nat" b!"POSTROUTING" = some [] ∧ run noSnatText b!"nat" b!"FWKNOP_POSTROUTING" = none ∧
      run noSnatText b!"nat" b!"FWKNOP_MASQUERADE" = none ∧
      run snatText b!"nat" b!"FWKNOP_POSTROUTING" =
        some [snatRule 6 b!"10.0.0.5" 22 1030 b!"SNAT" b!"--to-source" b!"192.0.2.1"] := by
  refine ⟨by decide +kernel, by decide +kernel, by decide +kernel, by decide +kernel, by decide +kernel, by decide +kernel⟩

/-- **C68 is false** of FORWARD_ALL with FORCE_MASQUERADE and no FORCE_NAT: a request that asks for no NAT is granted by sending all
packets of the client on to the address 0.0.0.0. -/
theorem C68_false_nat_to_nowhere :
    rulesFrom snatText b!"SOURCE any\nKEY kk\nFORWARD_ALL Y\nFORCE_MASQUERADE Y\n" sshRequest 1000 b!"nat" b!"FWKNOP_PREROUTING" =
      some [dnatAllRule sshRequest.use_src_ip b!"0.0.0.0/0" (1000 + sshRequest.fw_access_timeout) b!"DNAT" b!"0.0.0.0"] ∧
    sshRequest.message_type = FKO_ACCESS_MSG := by
  refine ⟨by decide +kernel, by decide⟩

/-- **C79 is false** of FORCE_MASQUERADE N: it switches off a FORCE_SNAT before it, though not one after it. -/
theorem C79_false_masquerade_off_ends_snat :
    loaded { oneFile b!"SOURCE any\nKEY kk\nFORCE_NAT 10.0.0.5 22\nFORCE_SNAT 192.0.2.1\nFORCE_MASQUERADE N\n" with nat_enabled := true }
      (.file b!"access.conf") (fun a => (a.force_snat, a.force_snat_ip)) = some [(false, some b!"192.0.2.1")] ∧
    loaded { oneFile b!"SOURCE any\nKEY kk\nFORCE_NAT 10.0.0.5 22\nFORCE_MASQUERADE N\nFORCE_SNAT 192.0.2.1\n" with nat_enabled := true }
      (.file b!"access.conf") (fun a => (a.force_snat, a.force_snat_ip)) = some [(true, some b!"192.0.2.1")] := by
  refine ⟨by decide +kernel, by decide +kernel⟩

/-- The reason: without ENABLE_IPT_SNAT, whatever else is set, there is no chain in which a source could be changed. -/
theorem C68_no_source_chain (c : SrvVars)
    (hoff : isOn c b!"ENABLE_IPT_SNAT" = false) (chs : List FwChain) (hc : fw_config_init c = .ok chs) :
    chs.getD 4 {} = {} ∧ chs.getD 5 {} = {} := by
  simp only [fw_config_init, hoff, Bool.and_false, chainIf, Bool.false_eq_true, if_false, res_bind_iff, Res.pure_eq, Res.ok.injEq] at hc
  obtain ⟨a, -, b, -, d, -, e, -, f, rfl, g, rfl, rfl⟩ := hc
  exact ⟨rfl, rfl⟩

example : chainsOf (srvConfig (confFiles [(b!"/etc/fwknop/fwknopd.conf", noSnatText)]) []) = some (dChains false true false) := by
  decide +kernel

end Fwknop.Props

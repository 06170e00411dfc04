import Verif.Model.Pf
import Verif.Model.IptInit

/-!
# Starting with pf (server/fw_util_pf.c: anchor_active, fw_initialize)

Modelled for a build with `execvp`.  Log messages are left out.
-/

namespace Fwknop

abbrev MAX_PF_ANCHOR_SEARCH_LEN : Nat := 75

/-- The text that is looked for, server/fw_util_pf.c:101-102. -/
def pfAnchorSearch (cf : PfConf) : Str := (cf.anchor ++ [10]).take (MAX_PF_ANCHOR_SEARCH_LEN - 2)

/-- PF_ANCHOR_CHECK_ARGS, server/fw_util_pf.h:51. -/
def pfAnchorCmd (cf : PfConf) : Str := cmdBuf (cf.fw_command ++ b!" -s Anchor")

/-- `anchor_active`, server/fw_util_pf.c:93-117. -/
def anchor_active {σ : Type} (cf : PfConf) (T : PipeTool σ) (w : σ) : Res (Bool × σ) :=
  search_extcmd T.plain (pfAnchorCmd cf) (pfAnchorSearch cf) w

/-- `fw_initialize`, server/fw_util_pf.c:165-182: whether the daemon goes on. -/
def pf_initialize {σ : Type} (cf : PfConf) (T : PipeTool σ) (w : σ) : Res (Bool × σ) := do
  let r ← anchor_active cf T w
  if !r.1 then return (false, r.2)
  else do
    let w ← delete_all_anchor_rules cf T r.2
    return (true, w)

end Fwknop

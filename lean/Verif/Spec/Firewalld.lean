import Verif.Spec.Iptables

/-!
# Independent description of firewall-cmd

`firewall-cmd --direct --passthrough ipv4 ARGS` has firewalld run iptables with ARGS.  If that works, what
iptables printed is printed, then a line `success`; otherwise a line that begins with
`Error: COMMAND_FAILED: `, whatever its rest.
-/

namespace Fwknop.Spec

/-- A host with firewalld: its iptables, and the explanation printed when iptables fails with some words and
some message. -/
structure FirewalldHost where
  ipt : Host
  explain : List Word → List Nat → List Nat

/-- Did iptables exit with status 0?  It prints something only if it failed or if it lists a chain. -/
def Call.worked (h : Host) (k : Call) (K : Tables) : Bool :=
  (k.perform h K).1 = [] || (k.op = .list && (K k.table k.chain).isSome)

/-- What firewall-cmd prints after something else. -/
abbrev successLine : List Nat := b!"success" ++ [10]

/-- What firewall-cmd prints for the result of a call of iptables. -/
def FirewalldHost.report (F : FirewalldHost) (args : List Word) (K : Tables) : List Nat :=
  let k := args.foldl Call.feed {}
  let out := (k.perform F.ipt K).1
  if k.worked F.ipt K then (if out = [] then successLine else out ++ 10 :: successLine)
  else b!"Error: COMMAND_FAILED: " ++ F.explain args out ++ [10]

/-- What firewall-cmd does to the tables, and what it prints. -/
def firewallCmd (F : FirewalldHost) (argv : List Word) (K : Tables) : List Nat × Tables :=
  if argv.tail.take 3 = [b!"--direct", b!"--passthrough", b!"ipv4"] then
    (F.report (argv.drop 4) K, ((argv.drop 4).foldl Call.feed {} |>.perform F.ipt K).2)
  else (b!"usage: see firewall-cmd man page" ++ [10], K)

/-- firewall-cmd with the fates of the coming calls. -/
def firewallCmdUnder (F : FirewalldHost) (argv : List Word) (K : Tables) :
    List Fate → List Nat × Bool × Tables × List Fate
  | [] => ((firewallCmd F argv K).1, true, (firewallCmd F argv K).2, [])
  | .works :: fs => ((firewallCmd F argv K).1, true, (firewallCmd F argv K).2, fs)
  | .refused :: fs => (b!"Error: COMMAND_FAILED: " ++ F.explain (argv.drop 4) refusal ++ [10], true, K, fs)
  | .killed :: fs => ([], false, K, fs)

/-- Does firewall-cmd exit with status 0? -/
def firewallCmdStatus0 (F : FirewalldHost) (argv : List Word) (K : Tables) : List Fate → Bool
  | .refused :: _ => false
  | .killed :: _ => false
  | _ => argv.tail.take 3 = [b!"--direct", b!"--passthrough", b!"ipv4"] &&
      ((argv.drop 4).foldl Call.feed {}).worked F.ipt K

end Fwknop.Spec

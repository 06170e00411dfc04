import Verif.Lemmas.Grammar

/-!
# C08, C09: what the library accepts as a message
-/

namespace Fwknop.Props
open Fwknop Fwknop.Spec

/-- **C08.** The texts accepted as a proto/port specification (a text without a comma, shorter
than the message limit) are exactly `tcp/<port>` and `udp/<port>`, with one to five digits
denoting 1..65535. -/
theorem C08_proto_port_grammar (s : Str) (hc : 44 ∉ s) (hl : s.length < 256) :
    validate_proto_port_spec s = true ↔ IsProtoPort s := by
  rw [validate_spec_iff, takeWhile_ne_self s 44 hc]
  simp [hl]

example : validate_proto_port_spec b!"tcp/22" = true ∧ validate_proto_port_spec b!"icmp/1" = false
    ∧ validate_proto_port_spec b!"tcp/65536" = false ∧ validate_proto_port_spec b!"tcp/" = false := by
  decide

/-- **C08.** Without the side conditions: what is checked is the text up to the first comma of
a text shorter than 256 characters. -/
theorem C08_proto_port_in_context (s : Str) :
    validate_proto_port_spec s = true ↔ s.length < 256 ∧ IsProtoPort (s.takeWhile (· ≠ 44)) :=
  validate_spec_iff s

/-- **C09.** Access messages. -/
theorem C09_access_grammar (s : Str) : validate_access_msg s = true ↔ IsAccessMsg s :=
  validate_access_iff s

/-- **C09.** Command messages. -/
theorem C09_command_grammar (s : Str) : validate_cmd_msg s = true ↔ IsCommandMsg s :=
  validate_cmd_iff s

/-- **C09.** NAT access messages. -/
theorem C09_nat_grammar (s : Str) :
    validate_nat_access_msg s = true ↔ IsNatTarget s ∧ s.length < 256 :=
  validate_nat_iff s

/-- **C09.** Dotted quads: accepted exactly when the four parts are octets, and the address is
the big-endian number of the four values. -/
theorem C09_ipv4_value (a b c d : Str) (ha : IsOctet a) (hb : IsOctet b) (hc : IsOctet c)
    (hd : IsOctet d) :
    inet_aton (a ++ 46 :: (b ++ 46 :: (c ++ 46 :: d))) =
      some (((octetVal a * 256 + octetVal b) * 256 + octetVal c) * 256 + octetVal d) :=
  (inet_aton_quad a b c d (shape_digits a ((isOctet_iff a).1 ha).1)
    (shape_digits b ((isOctet_iff b).1 hb).1) (shape_digits c ((isOctet_iff c).1 hc).1)
    (shape_digits d ((isOctet_iff d).1 hd).1) _).2 ⟨ha, hb, hc, hd, rfl⟩

/-- **C09.** Usernames: non-empty, and every one of the first 64 characters is allowed. -/
theorem C09_username_grammar (u : Str) :
    validate_username u = true ↔ u ≠ [] ∧ ∀ c ∈ u.take 64, IsUserChar c :=
  validate_username_iff u

example : validate_access_msg b!"1.2.3.4,tcp/22,udp/53" = true ∧
    validate_access_msg b!"1.2.3.4,tcp/22," = false ∧
    validate_access_msg b!"1.2.3.256,tcp/22" = false := by decide
example : validate_cmd_msg b!"1.2.3.4,reboot" = true ∧ validate_cmd_msg b!"1.2.3.4," = false := by
  decide
example : validate_nat_access_msg b!"192.168.10.3,22" = true ∧
    validate_nat_access_msg b!"192.168.10.3,0" = false := by decide
example : IsOctet b!"192" ∧ IsOctet b!"0" ∧ ¬ IsOctet b!"256" ∧ ¬ IsOctet b!"08" := by
  refine ⟨?_, ?_, ?_, ?_⟩ <;> simp [IsOctet, IsDigitChar, number]

end Fwknop.Props

import Verif.Lemmas.Prefix

/-!
# C73: the text of a prefix in a report

A report is serialised with its prefixes as text, and read again from there.
-/

set_option linter.unusedVariables false

namespace KSync

/-- The address is in `::ffff:0:0/96`: an IPv4 address mapped to IPv6. -/
def TypedPrefix.Mapped : TypedPrefix → Prop
  | .v4 _ _ => False
  | .v6 a _ => a.take 6 = [0, 0, 0, 0, 0, 0xffff]

/-- The address is in `::/96`, other than `::` and `::1`: what was called IPv4-compatible. -/
def TypedPrefix.Compatible : TypedPrefix → Prop
  | .v4 _ _ => False
  | .v6 a _ => a.take 6 = [0, 0, 0, 0, 0, 0] ∧ ¬ (a.take 7 = [0, 0, 0, 0, 0, 0, 0] ∧ (a.drop 7 = [0] ∨ a.drop 7 = [1]))

/-- **C73.** The text that is written for a prefix reads back as this prefix, except for addresses that
are shown with an IPv4 address in them: those mapped to IPv6, and with older versions of the standard
library the IPv4-compatible ones. -/
theorem C73_round_trip_partial {compat : Bool} {p : TypedPrefix} (hp : p.Proper) (hm : ¬ p.Mapped)
    (hc : compat = true → ¬ p.Compatible) : TypedPrefix.parse (p.text compat) = some p := by
  cases p with
  | v4 a n => exact parse_v4 hp.1 hp.2
  | v6 a n =>
    refine parse_v6 hp.1 hp.2 (embedded_take hp.1 hm fun h => ?_)
    by_cases h6 : a.take 6 = [0, 0, 0, 0, 0, 0]
    · exact Or.inl (Decidable.of_not_not fun hn => hc h ⟨h6, hn⟩)
    · exact Or.inr h6

/-- **C73.** No prefix of mapped addresses reads back: its text has a dot in it, and is thus taken for an
IPv4 prefix, which it is not. -/
theorem C73_refuted_for_mapped {compat : Bool} {p : TypedPrefix} (hp : p.Proper) (hm : p.Mapped) :
    TypedPrefix.parse (p.text compat) = none := by
  cases p with
  | v4 a n => exact hm.elim
  | v6 a n => exact parse_v6_dotted (by have := hp.2; omega) (embedded_mapped hp.1 hm)

/-- **C73.** Different prefixes have different texts, mapped ones included. -/
theorem C73_distinct {compat : Bool} {p q : TypedPrefix} (hp : p.Proper) (hq : q.Proper) (hne : p ≠ q) :
    p.text compat ≠ q.text compat :=
  fun h => hne (text_inj hp hq h)

/-- **C73.** What is read back from a text is never another prefix than the one it was written for. -/
theorem C73_no_other {compat : Bool} {p q : TypedPrefix} (hp : p.Proper)
    (h : TypedPrefix.parse (p.text compat) = some q) : q = p := by
  cases p with
  | v4 a n =>
    rw [parse_v4 hp.1 hp.2] at h
    injection h with h
    exact h.symm
  | v6 a n =>
    by_cases he : a.embedded compat = none
    · rw [parse_v6 hp.1 hp.2 he] at h
      injection h with h
      exact h.symm
    · rw [parse_v6_dotted (by have := hp.2; omega) he] at h
      cases h

section
set_option maxRecDepth 100000

/-- The documentation prefix for IPv6, as it is written; the longest sequence of zeros is left out, the
first of two. -/
example : (TypedPrefix.v6 [0x2001, 0xdb8, 0, 0, 0, 0, 0, 0] 32).text false = "2001:db8::/32".toList ∧
    (TypedPrefix.v6 [0x2001, 0, 0, 1, 0, 0, 0, 0xf] 128).text false = "2001:0:0:1::f/128".toList ∧
    (TypedPrefix.v6 [0x2001, 0, 0, 1, 2, 0, 0, 0xf] 128).text false = "2001::1:2:0:0:f/128".toList ∧
    (TypedPrefix.v6 [0x2001, 0, 1, 2, 3, 4, 5, 0] 112).text false = "2001:0:1:2:3:4:5:0/112".toList ∧
    (TypedPrefix.v6 [0, 0, 0, 0, 0, 0, 0, 0] 0).text false = "::/0".toList ∧
    (TypedPrefix.v4 [192, 0, 2, 0] 24).text false = "192.0.2.0/24".toList := by
  decide +kernel

/-- The hypotheses hold for one of each kind. -/
example : TypedPrefix.parse "2001:db8::/32".toList = some (.v6 [0x2001, 0xdb8, 0, 0, 0, 0, 0, 0] 32) := by
  have h := C73_round_trip_partial (compat := false) (p := .v6 [0x2001, 0xdb8, 0, 0, 0, 0, 0, 0] 32)
    ⟨rfl, by decide⟩ (by intro h; revert h; show ¬ [0x2001, 0xdb8, 0, 0, 0, 0] = [0, 0, 0, 0, 0, (0xffff : UInt16)]; decide)
    (by intro h; cases h)
  rw [← h]
  congr 1

example : TypedPrefix.parse "192.0.2.0/24".toList = some (.v4 [192, 0, 2, 0] 24) := by
  have h := C73_round_trip_partial (compat := true) (p := .v4 [192, 0, 2, 0] 24)
    ⟨rfl, by decide⟩ (fun h => h) (fun _ h => h)
  rw [← h]
  congr 1

/-- A mapped prefix: its text, which is refused. -/
example : (TypedPrefix.v6 [0, 0, 0, 0, 0, 0xffff, 0x0102, 0x0300] 120).text false = "::ffff:1.2.3.0/120".toList ∧
    TypedPrefix.parse "::ffff:1.2.3.0/120".toList = none := by
  have h := C73_refuted_for_mapped (compat := false) (p := .v6 [0, 0, 0, 0, 0, 0xffff, 0x0102, 0x0300] 120)
    ⟨rfl, by decide⟩ rfl
  have e : (TypedPrefix.v6 [0, 0, 0, 0, 0, 0xffff, 0x0102, 0x0300] 120).text false =
    "::ffff:1.2.3.0/120".toList := by decide +kernel
  rw [e] at h
  exact ⟨e, h⟩

/-- Two prefixes that differ only in their length. -/
example : (TypedPrefix.v4 [10, 0, 0, 0] 8).text true ≠ (TypedPrefix.v4 [10, 0, 0, 0] 9).text true :=
  C73_distinct ⟨rfl, by decide⟩ ⟨rfl, by decide⟩ (by decide)

example : ∀ q, TypedPrefix.parse "10.0.0.0/8".toList = some q → q = .v4 [10, 0, 0, 0] 8 := by
  intro q h
  refine C73_no_other (compat := false) (p := .v4 [10, 0, 0, 0] 8) ⟨rfl, by decide⟩ ?_
  rw [← h]
  congr 1

end

end KSync

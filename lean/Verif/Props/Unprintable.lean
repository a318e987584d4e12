import Verif.Addr
/-
Addresses without a text (used in C27 and C54).
-/
namespace PyLisp.Props
open PyLisp

/-- an address that has no text: an AFI list with an address in it, or something whose text contains that of one -/
inductive Unprintable : Addr → Prop
  | list {l : List Addr} : l ≠ [] → Unprintable (.afiList l)
  | inst {i m : Int} {a : Addr} : Unprintable a → Unprintable (.inst i a m)
  | asn {n : Int} {a : Addr} : Unprintable a → Unprintable (.asn n a)
  | geo {n ld lm ls e od om os alt} {a : Addr} : Unprintable a → Unprintable (.geo n ld lm ls e od om os alt a)
  | natGlobal {mp ep g m p l} : Unprintable g → Unprintable (.natT mp ep g m p l)
  | natMs {mp ep g m p l} : Unprintable m → Unprintable (.natT mp ep g m p l)
  | natPrivate {mp ep g m p l} : Unprintable p → Unprintable (.natT mp ep g m p l)

theorem unprintable_iff : ∀ a : Addr, Unprintable a ↔ a.textRaises = true
  | .none => ⟨(fun h => by cases h), (fun h => by cases h)⟩
  | .ip _ => ⟨(fun h => by cases h), (fun h => by cases h)⟩
  | .net _ => ⟨(fun h => by cases h), (fun h => by cases h)⟩
  | .null => ⟨(fun h => by cases h), (fun h => by cases h)⟩
  | .afiList l => by
    refine ⟨fun h => ?_, fun h => ?_⟩
    · cases h with
      | list h => cases l with
        | nil => exact absurd rfl h
        | cons => rfl
    · cases l with
      | nil => cases h
      | cons => exact .list (by simp)
  | .inst i a m => by
    refine ⟨fun h => ?_, fun h => .inst ((unprintable_iff a).mpr h)⟩
    cases h with | inst h => exact (unprintable_iff a).mp h
  | .asn i a => by
    refine ⟨fun h => ?_, fun h => .asn ((unprintable_iff a).mpr h)⟩
    cases h with | asn h => exact (unprintable_iff a).mp h
  | .geo _ _ _ _ _ _ _ _ _ a => by
    refine ⟨fun h => ?_, fun h => .geo ((unprintable_iff a).mpr h)⟩
    cases h with | geo h => exact (unprintable_iff a).mp h
  | .natT _ _ g m p _ => by
    simp only [Addr.textRaises, Bool.or_eq_true]
    refine ⟨fun h => ?_, fun h => ?_⟩
    · cases h with
      | natGlobal h => exact .inl (.inl ((unprintable_iff g).mp h))
      | natMs h => exact .inl (.inr ((unprintable_iff m).mp h))
      | natPrivate h => exact .inr ((unprintable_iff p).mp h)
    · rcases h with (h | h) | h
      · exact .natGlobal ((unprintable_iff g).mpr h)
      · exact .natMs ((unprintable_iff m).mpr h)
      · exact .natPrivate ((unprintable_iff p).mpr h)

end PyLisp.Props

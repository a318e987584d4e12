import Verif.Props.DdtText
import Verif.Props.AddrText

/-!
# C71 with the texts of the ipaddress library: a root file that is written is read back

`Props/DdtText.lean` is about arbitrary text parsers; here they are those of the library (`Verif/IPText.lean`), and the
files are those that anyone would write: one line per delegation, with the texts of the addresses and networks.
-/

namespace PyLisp.Props
open PyLisp PyLisp.IPText PyLisp.Rep

/-- a delegation, as an administrator thinks of it -/
structure FileEntry where
  inst : Nat
  afi : Nat
  pfx : Net
  addr : IP

/-- the text of a delegation in a root file -/
def FileEntry.line (d : FileEntry) : List Char :=
  digits d.inst ++ ' ' :: digits d.afi ++ ' ' :: netText d.pfx ++ ' ' :: addrText d.addr

/-- a file with these delegations, one per line -/
def rootFile (ds : List FileEntry) : List Char := ds.flatMap fun d => d.line ++ ['\n']

/-- what the loader should understand -/
def FileEntry.meaning (d : FileEntry) : DdtLine := ⟨d.inst, d.afi, some d.pfx, some d.addr⟩

theorem digits_decimal (n : Nat) : Decimal (digits n) :=
  ⟨digitsF_ne n n, fun c hc => isDigit_iff.mp (by
    have := digitsF_dig n n c hc
    simp only [isDigit, Bool.and_eq_true, decide_eq_true_eq]
    rw [char_range]
    simp only [isDig, Bool.and_eq_true, decide_eq_true_eq] at this
    simpa using this)⟩

theorem intOf_digits (n : Nat) : intOf (digits n) = n := by
  have h : ∀ f n, n ≤ f → intOf (digitsF f n) = n := by
    intro f
    induction f with
    | zero => intro n h; have : n = 0 := by omega
              subst this; rfl
    | succ f ih =>
      intro n h
      have hd : ∀ k, k < 10 → (digit k).toNat - '0'.toNat = k := by decide
      unfold digitsF
      split
      · rename_i hn
        show 10 * 0 + _ = n
        rw [hd n hn]; omega
      · rename_i hn
        have := ih (n / 10) (by omega)
        unfold intOf at this ⊢
        rw [List.foldl_append, this]
        show 10 * (n / 10) + _ = n
        rw [hd _ (Nat.mod_lt _ (by omega))]
        omega
  exact h n n (Nat.le_refl _)

theorem addrText_ne (a : IP) : addrText a ≠ [] := fun h => by
  have := ipAddress_addrText a
  rw [h] at this
  exact absurd this (by rw [show ipAddress [] = none by decide]; simp)

theorem netText_ne (n : Net) : netText n ≠ [] := fun h => by
  have := ipNetwork_netText n
  rw [h] at this
  exact absurd this (by rw [show ipNetwork [] = none by decide]; simp)

theorem addrText_address (a : IP) : AddressText (addrText a) := ⟨addrText_ne a, fun c hc => by
  have h := addrText_nice a c hc
  have h' : c ≠ '/' := fun e => addrText_slash a (e ▸ hc)
  revert h h'
  generalize hl : "0123456789abcdef.:/".toList = l
  intro h h'
  subst hl
  simp only [String.reduceToList, List.mem_cons, List.not_mem_nil, or_false] at h ⊢
  rcases h with h | h | h | h | h | h | h | h | h | h | h | h | h | h | h | h | h | h | h <;> simp_all⟩

theorem netText_prefix (n : Net) : PrefixText (netText n) := ⟨netText_ne n, fun c hc => by
  have h := netText_nice n c hc
  simp only [String.reduceToList, List.mem_cons, List.not_mem_nil, or_false] at h ⊢
  rcases h with h | h | h | h | h | h | h | h | h | h | h | h | h | h | h | h | h | h | h <;> simp_all⟩

theorem line_fields (d : FileEntry) (e : List Char) (he : e = [] ∨ e = ['\n']) :
    FieldsLine (d.line ++ e) (digits d.inst) (digits d.afi) (netText d.pfx) (addrText d.addr) := by
  refine ⟨[], [' '], [' '], [' '], e, [], ?_, ?_, ?_, ?_, ?_, ?_, .inl rfl, by simp, by simp, by simp,
    digits_decimal _, digits_decimal _, netText_prefix _, addrText_address _⟩
  · simp [FileEntry.line]
  · intro c h; cases h
  · intro c h; rw [List.mem_singleton.mp h]; decide
  · intro c h; rw [List.mem_singleton.mp h]; decide
  · intro c h; rw [List.mem_singleton.mp h]; decide
  · rcases he with rfl | rfl
    · intro c h; cases h
    · intro c h; rw [List.mem_singleton.mp h]; decide

theorem line_newline (d : FileEntry) : '\n' ∉ d.line := by
  intro h
  simp only [FileEntry.line, List.mem_append, List.mem_cons] at h
  rcases h with ((h | h | h) | h | h) | h | h
  · exact absurd ((digits_decimal _).2 (Char.ofNat 10) h) (by decide)
  · exact absurd h (by decide)
  · exact absurd ((digits_decimal _).2 (Char.ofNat 10) h) (by decide)
  · exact absurd h (by decide)
  · exact absurd ((netText_prefix _).2 (Char.ofNat 10) h) (by decide)
  · exact absurd h (by decide)
  · exact absurd ((addrText_address _).2 (Char.ofNat 10) h) (by decide)

theorem fileLines_line {l t : List Char} (h : '\n' ∉ l) : ∀ cur, fileLines cur (l ++ '\n' :: t) = (cur ++ l ++ ['\n']) :: fileLines [] t := by
  induction l with
  | nil => intro cur; simp [fileLines]
  | cons c l ih =>
    intro cur
    have hc : c ≠ '\n' := fun e => h (e ▸ List.mem_cons_self)
    rw [List.cons_append, fileLines, if_neg hc, ih (fun hm => h (List.mem_cons_of_mem _ hm))]
    simp

theorem read_line (d : FileEntry) : readDdtLine ipAddress ipNetwork (d.line ++ ['\n']) = .ok (some d.meaning) := by
  have h := (fieldsLine_iff (g := ⟨digits d.inst, digits d.afi, netText d.pfx, addrText d.addr⟩)).mp
    (line_fields d ['\n'] (.inr rfl))
  unfold readDdtLine
  rw [if_neg (by intro e; rw [e] at h; exact absurd h (by rw [show ddtMatch [] = none by decide]; simp)), h]
  simp only [intOf_digits, ipAddress_addrText, ipNetwork_netText, FileEntry.meaning]

/-- C71: a file that lists delegations, one per line, each with its instance, its AFI and the texts of its prefix and its
address, loads exactly like these delegations: the result, or the exception, is that of the delegations (C44). -/
theorem ddt_file_roundtrip (ds : List FileEntry) :
    loadDdtText ipAddress ipNetwork (rootFile ds) = loadDdtRoot (ds.map FileEntry.meaning) := by
  unfold loadDdtText loadDdtRoot
  generalize (fun _ => none : Instances) = st
  induction ds generalizing st with
  | nil => rfl
  | cons d ds ih =>
    have : rootFile (d :: ds) = d.line ++ '\n' :: rootFile ds := by simp [rootFile]
    rw [this, fileLines_line (line_newline d), List.nil_append, loadTextLines, read_line, List.map_cons, loadLines]
    simp only
    cases loadLine st d.meaning with
    | error e => rfl
    | ok st => exact ih st

/-- two delegations, and what the file with them is -/
def exEntries : List FileEntry :=
  [⟨0, 1, ⟨.v4, 0x0a000000, 8, by decide, by decide, by decide⟩, ⟨.v4, 0xc0000201, by decide⟩⟩,
   ⟨7, 2, ⟨.v6, 0x20010db8000000000000000000000000, 32, by decide, by decide, by decide⟩, ⟨.v6, 1, by decide⟩⟩]

example : String.ofList (rootFile exEntries) = "0 1 10.0.0.0/8 192.0.2.1\n7 2 2001:db8::/32 ::1\n" := by decide +kernel
example : isOk (loadDdtText ipAddress ipNetwork (rootFile exEntries)) = true := by decide +kernel
-- texts of other programs: upper case, zeros written out, an IPv4 suffix
example : isOk (loadDdtText ipAddress ipNetwork "7 2 2001:0DB8:0::/32 ::ffff:192.0.2.1 # mapped".toList) = true := by
  decide +kernel
-- host bits, or a prefix that is too long, are refused
example : isOk (loadDdtText ipAddress ipNetwork "0 1 10.0.0.1/8 192.0.2.1".toList) = false := by decide +kernel
example : isOk (loadDdtText ipAddress ipNetwork "0 1 10.0.0.0/33 192.0.2.1".toList) = false := by decide +kernel

end PyLisp.Props

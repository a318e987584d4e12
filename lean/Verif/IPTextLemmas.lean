import Verif.IPText
import Verif.Props.Represent
/-
Lemmas about the texts of IPText.lean: what is written is read back, and the characters of texts that can be read.
-/
namespace PyLisp.IPText
open PyLisp PyLisp.Rep PyLisp.Props

/-! ### parts -/

theorem splitOn_nosep {sep : Char} : ∀ {p : List Char}, sep ∉ p → splitOn sep p = [p]
  | [], _ => rfl
  | c :: t, h => by
    have hc : c ≠ sep := fun e => h (by simp [e])
    have ht : sep ∉ t := fun e => h (by simp [e])
    simp [splitOn, hc, splitOn_nosep ht]

theorem splitOn_append {sep : Char} : ∀ {p : List Char} (t : List Char), sep ∉ p →
    splitOn sep (p ++ sep :: t) = p :: splitOn sep t
  | [], t, _ => by simp [splitOn]
  | c :: p, t, h => by
    have hc : c ≠ sep := fun e => h (by simp [e])
    have ht : sep ∉ p := fun e => h (by simp [e])
    simp [splitOn, hc, splitOn_append t ht]

theorem split_join {sep : Char} : ∀ {l : List (List Char)}, l ≠ [] → (∀ p ∈ l, sep ∉ p) →
    splitOn sep (joinWith sep l) = l
  | [], h, _ => absurd rfl h
  | [p], _, h => splitOn_nosep (h p (by simp))
  | p :: q :: r, _, h => by
    rw [joinWith, splitOn_append _ (h p (by simp)), split_join (by simp) (fun x hx => h x (by simp [hx]))]

theorem mem_splitOn {sep c : Char} : ∀ {t : List Char}, c ∈ t → c = sep ∨ ∃ p ∈ splitOn sep t, c ∈ p
  | [], h => by cases h
  | x :: t, h => by
    by_cases hx : x = sep
    · rcases List.mem_cons.mp h with rfl | h
      · exact .inl hx
      · rcases mem_splitOn (sep := sep) h with h | ⟨p, hp, hc⟩
        · exact .inl h
        · exact .inr ⟨p, by simp [splitOn, hx, hp], hc⟩
    · simp only [splitOn, if_neg hx]
      rcases List.mem_cons.mp h with rfl | h
      · cases splitOn sep t <;> exact .inr ⟨_, List.mem_cons_self, List.mem_cons_self⟩
      · rcases mem_splitOn (sep := sep) h with h | ⟨p, hp, hc⟩
        · exact .inl h
        · cases hs : splitOn sep t with
          | nil => rw [hs] at hp; cases hp
          | cons q qs =>
            rw [hs] at hp
            rcases List.mem_cons.mp hp with rfl | hp
            · exact .inr ⟨_, List.mem_cons_self, List.mem_cons_of_mem _ hc⟩
            · exact .inr ⟨p, List.mem_cons_of_mem _ hp, hc⟩

theorem mem_joinWith {sep c : Char} : ∀ {l : List (List Char)}, c ∈ joinWith sep l → c = sep ∨ ∃ p ∈ l, c ∈ p
  | [], h => by cases h
  | [p], h => .inr ⟨p, by simp, h⟩
  | p :: q :: r, h => by
    rw [joinWith] at h
    rcases List.mem_append.mp h with h | h
    · exact .inr ⟨p, by simp, h⟩
    · rcases List.mem_cons.mp h with h | h
      · exact .inl h
      · rcases mem_joinWith h with h | ⟨x, hx, hc⟩
        · exact .inl h
        · exact .inr ⟨x, List.mem_cons_of_mem _ hx, hc⟩

/-! ### groups -/

theorem groups_length (b : Nat) : ∀ k v, (groups b k v).length = k
  | 0, _ => rfl
  | k + 1, v => by simp [groups, groups_length b k]

theorem groups_lt {b : Nat} (hb : 0 < b) : ∀ k v, ∀ d ∈ groups b k v, d < b
  | 0, _, d, h => by cases h
  | k + 1, v, d, h => by
    rw [groups] at h
    rcases List.mem_append.mp h with h | h
    · exact groups_lt hb k _ d h
    · rw [List.mem_singleton] at h
      subst h
      exact Nat.mod_lt _ hb

theorem ungroup_snoc (b : Nat) (l : List Nat) (d : Nat) : ungroup b (l ++ [d]) = ungroup b l * b + d := by
  simp [ungroup]

theorem ungroup_groups (b : Nat) (hb : 0 < b) : ∀ k v, v < b ^ k → ungroup b (groups b k v) = v
  | 0, v, h => by
    have : v = 0 := by simpa using h
    subst this; rfl
  | k + 1, v, h => by
    rw [groups, ungroup_snoc, ungroup_groups b hb k (v / b) (by
      rw [Nat.pow_succ] at h
      exact Nat.div_lt_of_lt_mul (by rwa [Nat.mul_comm] at h))]
    rw [Nat.mul_comm]
    exact Nat.div_add_mod v b

/-! ### numbers -/

theorem digits_len {n : Nat} (h : n < 256) : (digits n).length ≤ 3 := by
  have key : ∀ f n, n < 1000 → (digitsF f n).length ≤ 3 := by
    intro f n hn
    match f with
    | 0 => simp [digitsF]
    | 1 => unfold digitsF; split <;> simp [digitsF]
    | 2 =>
      unfold digitsF; split
      · simp
      · unfold digitsF; split <;> simp [digitsF]
    | f + 3 =>
      unfold digitsF; split
      · simp
      · unfold digitsF; split
        · simp
        · unfold digitsF
          rw [if_pos (by omega)]
          simp
  exact key n n (by omega)

theorem valueOf_digits (n : Nat) : valueOf (digits n) = n := valueOf_digitsF n n (Nat.le_refl _)

theorem octet_digits {n : Nat} (h : n < 256) : octet (digits n) = some n := by
  have h1 : digits n ≠ [] := digitsF_ne n n
  have h2 : (digits n).all isDig = true := List.all_eq_true.mpr (digitsF_dig n n)
  have h3 := digits_len h
  have h4 := valueOf_digits n
  unfold octet
  rw [if_neg h1, h2, if_neg (by simp), if_neg (by omega), if_neg, if_neg (by omega), h4]
  rw [h4]
  rintro ⟨h7, hh⟩
  cases hd : digits n with
  | nil => exact h1 hd
  | cons c w =>
    rw [hd] at hh
    simp only [List.head?_cons, Option.some.injEq] at hh
    subst hh
    exact digitsF_head n n (Nat.le_refl _) (by omega) w hd

theorem hexF_ne : ∀ f n, hexF f n ≠ []
  | 0, n => by simp [hexF]
  | f + 1, n => by unfold hexF; split <;> simp

theorem hexDigit_hexChar : ∀ k, k < 16 → hexDigit (hexChar k) = some k := by decide

theorem hexF_len : ∀ f n k, n < 16 ^ (k + 1) → (hexF f n).length ≤ k + 1
  | 0, n, k, _ => by simp [hexF]
  | f + 1, n, 0, h => by unfold hexF; rw [if_pos (by simpa using h)]; simp
  | f + 1, n, k + 1, h => by
    unfold hexF
    split
    · simp
    · have : n / 16 < 16 ^ (k + 1) := Nat.div_lt_of_lt_mul (by rw [Nat.pow_succ] at h; rwa [Nat.mul_comm] at h)
      have := hexF_len f (n / 16) k this
      simp
      omega

theorem allSome_append (l m : List (Option α)) : allSome (l ++ m) =
    (allSome l).bind fun a => (allSome m).map (a ++ ·) := by
  induction l with
  | nil => cases h : allSome m <;> simp [allSome, h]
  | cons x l ih =>
    cases x with
    | none => rfl
    | some x =>
      simp only [List.cons_append, allSome, ih]
      cases allSome l <;> cases allSome m <;> rfl

theorem allSome_map_some (l : List α) : allSome (l.map some) = some l := by
  induction l with
  | nil => rfl
  | cons x l ih => simp [allSome, ih]

theorem hexF_value : ∀ f n, n ≤ f → ∃ l, allSome ((hexF f n).map hexDigit) = some l ∧ ungroup 16 l = n
  | 0, n, h => by
    have : n = 0 := by omega
    subst this
    exact ⟨[0], by decide, by decide⟩
  | f + 1, n, h => by
    unfold hexF
    split
    · rename_i hn
      exact ⟨[n], by simp [allSome, hexDigit_hexChar n hn], by simp [ungroup]⟩
    · rename_i hn
      obtain ⟨l, h1, h2⟩ := hexF_value f (n / 16) (by omega)
      refine ⟨l ++ [n % 16], ?_, ?_⟩
      · rw [List.map_append, allSome_append, h1]
        simp [allSome, hexDigit_hexChar (n % 16) (Nat.mod_lt _ (by omega))]
      · rw [ungroup_snoc, h2]; omega

theorem hextet_hex {n : Nat} (h : n < 65536) : hextet (hex n) = some (some n) := by
  obtain ⟨l, h1, h2⟩ := hexF_value n n (Nat.le_refl _)
  have h3 := hexF_len n n 3 (by simpa using h)
  unfold hextet hex
  rw [if_neg (hexF_ne n n), if_neg (by omega)]
  rw [h1, Option.map_some, h2]

/-! ### characters -/

/-- the characters of the texts of addresses -/
def AddrChar (c : Char) : Prop := hexDigit c ≠ none ∨ c = '.' ∨ c = ':'

theorem isDig_hexDigit {c : Char} (h : isDig c = true) : hexDigit c ≠ none := by simp [hexDigit, h]

theorem allSome_mem : ∀ {l : List (Option α)} {m : List α}, allSome l = some m → ∀ x ∈ l, x ≠ none
  | [], _, _, x, h => by cases h
  | none :: l, _, h, _, _ => by cases h
  | some y :: l, m, h, x, hx => by
    rw [allSome] at h
    cases hl : allSome l with
    | none => rw [hl] at h; cases h
    | some m' =>
      rcases List.mem_cons.mp hx with rfl | hx
      · simp
      · exact allSome_mem hl x hx

theorem octet_chars {p : List Char} (h : octet p ≠ none) : ∀ c ∈ p, isDig c = true := by
  unfold octet at h
  split at h
  · exact absurd rfl h
  · split at h
    · exact absurd rfl h
    · rename_i hd
      exact List.all_eq_true.mp (by simpa using hd)

theorem parse4_chars {t : List Char} (h : parse4 t ≠ none) : ∀ c ∈ t, AddrChar c := by
  intro c hc
  rcases mem_splitOn (sep := '.') hc with rfl | ⟨p, hp, hcp⟩
  · exact .inr (.inl rfl)
  · refine .inl (isDig_hexDigit ?_)
    unfold parse4 at h
    simp only at h
    split at h
    · exact absurd rfl h
    · cases ha : allSome ((splitOn '.' t).map octet) with
      | none => rw [ha] at h; exact absurd rfl h
      | some m => exact octet_chars (allSome_mem ha _ (List.mem_map_of_mem hp)) c hcp

theorem hextet_chars {p : List Char} (h : hextet p ≠ none) : ∀ c ∈ p, hexDigit c ≠ none := by
  intro c hc
  unfold hextet at h
  split at h
  · rename_i hp; rw [hp] at hc; cases hc
  · split at h
    · exact absurd rfl h
    · cases ha : allSome (p.map hexDigit) with
      | none => rw [ha] at h; exact absurd rfl h
      | some m => exact allSome_mem ha _ (List.mem_map_of_mem hc)

theorem v4Suffix_mem : ∀ {l l' : List (List Char)}, v4Suffix l = some l' → ∀ p ∈ l, p ∈ l' ∨ parse4 p ≠ none
  | [], _, _, p, h => by cases h
  | [q], l', h, p, hp => by
    rw [List.mem_singleton] at hp
    subst hp
    unfold v4Suffix at h
    split at h
    · right
      intro hn
      rw [hn] at h
      cases h
    · cases h; simp
  | q :: r :: l, l', h, p, hp => by
    rw [v4Suffix] at h
    · cases hs : v4Suffix (r :: l) with
      | none => rw [hs] at h; cases h
      | some m =>
        rw [hs] at h
        cases h
        rcases List.mem_cons.mp hp with rfl | hp
        · simp
        · rcases v4Suffix_mem hs p hp with h | h
          · exact .inl (List.mem_cons_of_mem _ h)
          · exact .inr h
    · intro h; cases h

theorem parse6_chars {t : List Char} (h : parse6 t ≠ none) : ∀ c ∈ t, AddrChar c := by
  intro c hc
  rcases mem_splitOn (sep := ':') hc with rfl | ⟨p, hp, hcp⟩
  · exact .inr (.inr rfl)
  · unfold parse6 at h
    simp only at h
    split at h
    · exact absurd rfl h
    · cases hv : v4Suffix (splitOn ':' t) with
      | none => rw [hv] at h; exact absurd rfl h
      | some ps =>
        rw [hv] at h
        simp only at h
        rcases v4Suffix_mem hv p hp with h' | h'
        · cases ha : allSome (ps.map hextet) with
          | none => rw [ha] at h; exact absurd rfl h
          | some m => exact .inl (hextet_chars (allSome_mem ha _ (List.mem_map_of_mem h')) c hcp)
        · exact parse4_chars h' c hcp

theorem parseAddr_chars {v : Ver} {t : List Char} {a : IP} (h : parseAddr v t = some a) : ∀ c ∈ t, AddrChar c := by
  unfold parseAddr at h
  cases v with
  | v4 =>
    cases h4 : parse4 t with
    | none => rw [h4] at h; cases h
    | some x => exact parse4_chars (by rw [h4]; simp)
  | v6 =>
    cases h6 : parse6 t with
    | none => rw [h6] at h; cases h
    | some x => exact parse6_chars (by rw [h6]; simp)

theorem parseNet_chars {v : Ver} {t : List Char} {n : Net} (h : parseNet v t = some n) :
    ∀ c ∈ t, AddrChar c ∨ c = '/' := by
  intro c hc
  rcases mem_splitOn (sep := '/') hc with rfl | ⟨p, hp, hcp⟩
  · exact .inr rfl
  · left
    unfold parseNet at h
    match hs : splitOn '/' t with
    | [] => rw [hs] at hp; cases hp
    | [a] =>
      rw [hs] at h hp
      simp only at h
      rw [List.mem_singleton] at hp
      subst hp
      cases ha : parseAddr v p with
      | none => rw [ha] at h; cases h
      | some x => exact parseAddr_chars ha c hcp
    | [a, q] =>
      rw [hs] at h hp
      simp only at h
      cases ha : parseAddr v a with
      | none => rw [ha] at h; cases h
      | some x =>
        rw [ha] at h
        simp only at h
        split at h
        · rename_i hq
          simp only [List.mem_cons, List.not_mem_nil, or_false] at hp
          rcases hp with rfl | rfl
          · exact parseAddr_chars ha c hcp
          · exact .inl (isDig_hexDigit (List.all_eq_true.mp hq.2.1 c hcp))
        · cases h
    | a :: b :: d :: l =>
      rw [hs] at h
      cases h

/-! ### writing and reading -/

theorem hexDigit_ok {c : Char} {k : Nat} (h : hexDigit c = some k) : c ∈ "0123456789abcdefABCDEF".toList := by
  have : ∀ n, n < 128 → hexDigit (Char.ofNat n) ≠ none → Char.ofNat n ∈ "0123456789abcdefABCDEF".toList := by decide
  have hn : c.toNat < 128 := by
    unfold hexDigit at h
    split at h
    · rename_i hd
      simp only [isDig, Bool.and_eq_true, decide_eq_true_eq] at hd
      omega
    · split at h
      · omega
      · split at h
        · omega
        · cases h
  have := this c.toNat hn (by rw [Char.ofNat_toNat]; rw [h]; simp)
  rwa [Char.ofNat_toNat] at this

theorem hexF_chars : ∀ f n, ∀ c ∈ hexF f n, ∃ k, k < 16 ∧ c = hexChar k
  | 0, n, c, h => by
    simp only [hexF, List.mem_singleton] at h
    exact ⟨_, Nat.mod_lt _ (by omega), h⟩
  | f + 1, n, c, h => by
    unfold hexF at h
    split at h
    · rw [List.mem_singleton] at h
      exact ⟨n, by assumption, h⟩
    · rcases List.mem_append.mp h with h | h
      · exact hexF_chars f _ c h
      · rw [List.mem_singleton] at h
        exact ⟨_, Nat.mod_lt _ (by omega), h⟩

theorem hexChar_nice : ∀ k, k < 16 → hexChar k ∈ "0123456789abcdef".toList := by decide

theorem hex_zero {n : Nat} (h : n < 65536) : hex n = ['0'] ↔ n = 0 := by
  constructor
  · intro e
    have h1 := hextet_hex h
    rw [e] at h1
    have h2 : hextet ['0'] = some (some 0) := by decide
    rw [h2] at h1
    simpa using h1.symm
  · rintro rfl; decide

theorem parse4_text4 {v : Nat} (h : v < 2 ^ 32) : parse4 (text4 v) = some v := by
  have hs : splitOn '.' (text4 v) = (groups 256 4 v).map digits := by
    refine split_join ?_ ?_
    · intro e
      have := congrArg List.length e
      simp [groups_length] at this
    · intro p hp hc
      obtain ⟨n, _, rfl⟩ := List.mem_map.mp hp
      have := digitsF_dig n n _ hc
      revert this; decide
  have ho : ∀ l : List Nat, (∀ d ∈ l, d < 256) → (l.map digits).map octet = l.map some := by
    intro l hl
    simp only [List.map_map]
    exact List.map_congr_left fun d hd => octet_digits (hl d hd)
  unfold parse4
  rw [hs]
  simp only [List.length_map, groups_length]
  rw [if_neg (by simp), ho _ (groups_lt (by omega) 4 v), allSome_map_some, Option.map_some,
    ungroup_groups 256 (by omega) 4 v (by simpa using h)]

/-- the run the library finds among eight groups is a run of zeros -/
theorem bestRun8 : ∀ b0 b1 b2 b3 b4 b5 b6 b7 : Bool,
    (bestRun 0 0 0 0 0 [b0, b1, b2, b3, b4, b5, b6, b7]).2 ≤ 1 ∨
    ((bestRun 0 0 0 0 0 [b0, b1, b2, b3, b4, b5, b6, b7]).1 + (bestRun 0 0 0 0 0 [b0, b1, b2, b3, b4, b5, b6, b7]).2 ≤ 8 ∧
     ∀ i, i < 8 → (bestRun 0 0 0 0 0 [b0, b1, b2, b3, b4, b5, b6, b7]).1 ≤ i →
      i < (bestRun 0 0 0 0 0 [b0, b1, b2, b3, b4, b5, b6, b7]).1 + (bestRun 0 0 0 0 0 [b0, b1, b2, b3, b4, b5, b6, b7]).2 →
      [b0, b1, b2, b3, b4, b5, b6, b7][i]? = some true) := by decide +kernel

theorem list8 {l : List α} (h : l.length = 8) : ∃ a b c d e f g i, l = [a, b, c, d, e, f, g, i] := by
  match l, h with
  | [a, b, c, d, e, f, g, i], _ => exact ⟨a, b, c, d, e, f, g, i, rfl⟩

theorem bestRun_zeros {bs : List Bool} (h : bs.length = 8) (r : Nat × Nat) (hr : bestRun 0 0 0 0 0 bs = r) :
    r.2 ≤ 1 ∨ (r.1 + r.2 ≤ 8 ∧ ∀ i, i < 8 → r.1 ≤ i → i < r.1 + r.2 → bs[i]? = some true) := by
  obtain ⟨a, b, c, d, e, f, g, i, rfl⟩ := list8 h
  subst hr
  exact bestRun8 a b c d e f g i

theorem skipAt_somes : ∀ (l : List Nat) (x : List (Option Nat)), skipAt (l.map some ++ none :: x) = some (l.map some, x)
  | [], x => rfl
  | a :: l, x => by simp [skipAt, skipAt_somes l x]

theorem side_somes {l : List Nat} : side (l.map some) = some l := by
  unfold side
  rw [if_neg, allSome_map_some]
  cases l <;> simp

theorem dropLast_getLast (x : List α) : x.dropLast ++ x.getLast?.toList = x := by
  rcases List.eq_nil_or_concat x with rfl | ⟨l, a, rfl⟩
  · rfl
  · simp

/-- the parts with one gap -/
theorem expand_gap (a b : List Nat) (h : a.length + b.length < 8) :
    expand ((if a = [] then [none] else []) ++ a.map some ++ [none] ++ b.map some ++ (if b = [] then [none] else [])) =
      some (a ++ List.replicate (8 - (a.length + b.length)) 0 ++ b) := by
  obtain ⟨first, c, hf, hside⟩ : ∃ first, ∃ c : List Nat, (if a = [] then [none] else []) ++ a.map some = first :: c.map some ∧
      side (first :: c.map some) = some a := by
    cases a with
    | nil => exact ⟨none, [], rfl, rfl⟩
    | cons x a => exact ⟨some x, a, rfl, side_somes (l := x :: a)⟩
  obtain ⟨x, hx, hxne, hxside⟩ : ∃ x : List (Option Nat), b.map some ++ (if b = [] then [none] else []) = x ∧ x ≠ [] ∧
      side x = some b := by
    cases b with
    | nil => exact ⟨_, rfl, by simp, rfl⟩
    | cons y b => exact ⟨_, rfl, by simp, by simpa using side_somes (l := y :: b)⟩
  have hl : (if a = [] then [none] else []) ++ a.map some ++ [none] ++ b.map some ++ (if b = [] then [none] else []) =
      first :: (c.map some ++ none :: x) := by
    rw [hf, List.append_assoc, hx]; simp
  have hlen : (first :: (c.map some ++ none :: x)).length ≤ 9 := by
    rw [← hl]
    simp only [List.length_append, List.length_map, List.length_cons, List.length_nil]
    cases a <;> cases b <;> simp at h ⊢ <;> omega
  rw [hl]
  unfold expand
  rw [if_neg (by omega)]
  have hd : (c.map some ++ none :: x).dropLast = c.map some ++ none :: x.dropLast := by
    rw [List.dropLast_append_of_ne_nil (by simp), List.dropLast_cons_of_ne_nil hxne]
  have hg : (c.map some ++ none :: x).getLast? = x.getLast? := by
    rcases List.eq_nil_or_concat x with rfl | ⟨l, z, rfl⟩
    · exact absurd rfl hxne
    · have : (none :: (l ++ [z])).getLast? = some z := by rw [← List.cons_append]; exact List.getLast?_concat
      simp [List.concat_eq_append, this]
  simp only [hd, skipAt_somes, hside, hg, dropLast_getLast, hxside, if_pos h]

theorem expand_full {l : List Nat} (h : l.length = 8) : expand (l.map some) = some l := by
  obtain ⟨a, b, c, d, e, f, g, i, rfl⟩ := list8 h
  rfl

/-- compressing and expanding -/
theorem compress_back {hs : List Nat} (hlen : hs.length = 8) (hlt : ∀ d ∈ hs, d < 65536) :
    ∃ l, allSome ((compress (hs.map hex)).map hextet) = some l ∧ expand l = some hs := by
  have hmap : ∀ l : List Nat, (∀ d ∈ l, d < 65536) → (l.map hex).map hextet = (l.map some).map some := by
    intro l hl
    simp only [List.map_map]
    exact List.map_congr_left fun d hd => hextet_hex (hl d hd)
  have hb : (hs.map hex).map (· == ['0']) = hs.map (fun h => decide (h = 0)) := by
    simp only [List.map_map]
    refine List.map_congr_left fun d hd => ?_
    show (hex d == ['0']) = _
    rw [Bool.eq_iff_iff]
    simp [hex_zero (hlt d hd)]
  unfold compress
  rw [hb]
  generalize hr : bestRun 0 0 0 0 0 (hs.map fun h => decide (h = 0)) = r
  obtain ⟨s, k⟩ := r
  simp only
  by_cases hk : k > 1
  · rw [if_pos hk]
    rcases bestRun_zeros (by simp [hlen]) (s, k) hr with h | ⟨hsk, hz⟩
    · simp at h; omega
    · simp only at hsk hz
      have hzero : (hs.drop s).take k = List.replicate k 0 := by
        apply List.eq_replicate_iff.mpr
        refine ⟨by simp [hlen]; omega, ?_⟩
        intro d hd
        obtain ⟨i, hi, rfl⟩ := List.getElem_of_mem hd
        simp only [List.length_take, List.length_drop, hlen] at hi
        have := hz (s + i) (by omega) (by omega) (by omega)
        rw [List.getElem?_map] at this
        simp only [List.getElem_take, List.getElem_drop]
        rw [List.getElem?_eq_getElem (by omega)] at this
        simpa using this
      have hsplit : hs = hs.take s ++ List.replicate k 0 ++ hs.drop (s + k) := by
        rw [← hzero, ← List.drop_drop, List.append_assoc, List.take_append_drop, List.take_append_drop]
      have ha : (s = 0) ↔ hs.take s = [] := by
        constructor
        · rintro rfl; simp
        · intro h
          have := congrArg List.length h
          simp [hlen] at this
          omega
      have hbn : (s + k = (hs.map hex).length) ↔ hs.drop (s + k) = [] := by
        constructor
        · intro h
          rw [List.length_map, hlen] at h
          exact List.drop_eq_nil_of_le (by omega)
        · intro h
          have := congrArg List.length h
          simp [hlen] at this ⊢
          omega
      have hA : (hs.take s).length = s := by simp [hlen]; omega
      have hB : (hs.drop (s + k)).length = 8 - (s + k) := by simp [hlen]
      refine ⟨(if hs.take s = [] then [none] else []) ++ (hs.take s).map some ++ [none] ++ (hs.drop (s + k)).map some ++
        (if hs.drop (s + k) = [] then [none] else []), ?_, ?_⟩
      · rw [← allSome_map_some ((if hs.take s = [] then [none] else []) ++ (hs.take s).map some ++ [none] ++
          (hs.drop (s + k)).map some ++ (if hs.drop (s + k) = [] then [none] else []))]
        congr 1
        simp only [List.map_append, ← List.map_take, ← List.map_drop]
        rw [hmap _ fun d hd => hlt d (List.mem_of_mem_take hd), hmap _ fun d hd => hlt d (List.mem_of_mem_drop hd)]
        have e1 : ((if s = 0 then [[]] else []).map hextet : List (Option (Option Nat))) =
            (if hs.take s = [] then [none] else []).map some := by
          by_cases h : s = 0
          · rw [if_pos h, if_pos (ha.mp h)]; rfl
          · rw [if_neg h, if_neg (fun e => h (ha.mpr e))]; rfl
        have e2 : ((if s + k = (hs.map hex).length then [[]] else []).map hextet : List (Option (Option Nat))) =
            (if hs.drop (s + k) = [] then [none] else []).map some := by
          by_cases h : s + k = (hs.map hex).length
          · rw [if_pos h, if_pos (hbn.mp h)]; rfl
          · rw [if_neg h, if_neg (fun e => h (hbn.mpr e))]; rfl
        rw [e1, e2]
        rfl
      · rw [expand_gap _ _ (by rw [hA, hB]; omega), hA, hB, show 8 - (s + (8 - (s + k))) = k by omega, ← hsplit]
  · rw [if_neg hk]
    exact ⟨hs.map some, by rw [hmap hs hlt, allSome_map_some], expand_full hlen⟩

theorem compress_mem {l : List (List Char)} {p : List Char} (h : p ∈ compress l) : p = [] ∨ p ∈ l := by
  unfold compress at h
  simp only at h
  split at h
  · simp only [List.mem_append] at h
    rcases h with (((h | h) | h) | h) | h
    · split at h
      · left; simpa using h
      · cases h
    · exact .inr (List.mem_of_mem_take h)
    · left; simpa using h
    · exact .inr (List.mem_of_mem_drop h)
    · split at h
      · left; simpa using h
      · cases h
  · exact .inr h

theorem v4Suffix_id : ∀ {l : List (List Char)}, (∀ p ∈ l, '.' ∉ p) → v4Suffix l = some l
  | [], _ => rfl
  | [p], h => by simp [v4Suffix, h p (by simp)]
  | p :: q :: l, h => by
    rw [v4Suffix]
    · rw [v4Suffix_id fun x hx => h x (List.mem_cons_of_mem _ hx)]; rfl
    · intro h; cases h

theorem hexChar_sep : ∀ k, k < 16 → hexChar k ≠ ':' ∧ hexChar k ≠ '.' := by decide

theorem hex_sep (n : Nat) : ':' ∉ hex n ∧ '.' ∉ hex n := by
  constructor
  · intro h
    obtain ⟨k, hk, e⟩ := hexF_chars n n _ h
    exact (hexChar_sep k hk).1 e.symm
  · intro h
    obtain ⟨k, hk, e⟩ := hexF_chars n n _ h
    exact (hexChar_sep k hk).2 e.symm

theorem compress_parts (hs : List Nat) : ∀ p ∈ compress (hs.map hex), ':' ∉ p ∧ '.' ∉ p := by
  intro p hp
  rcases compress_mem hp with rfl | h
  · simp
  · obtain ⟨n, _, rfl⟩ := List.mem_map.mp h
    exact hex_sep n

theorem compress_length {hs : List Nat} (hlen : hs.length = 8) : 3 ≤ (compress (hs.map hex)).length := by
  unfold compress
  generalize hr : bestRun 0 0 0 0 0 ((hs.map hex).map (· == ['0'])) = r
  have hz := bestRun_zeros (by simp [hlen]) r hr
  obtain ⟨s, k⟩ := r
  simp only at hz ⊢
  split
  · simp only [List.length_append, List.length_take, List.length_drop, List.length_map, hlen, List.length_cons, List.length_nil]
    have hle : s + k ≤ 8 := by rcases hz with h | h <;> omega
    split <;> split <;> simp only [List.length_cons, List.length_nil] <;> omega
  · simp [hlen]

theorem parse6_text6 {v : Nat} (h : v < 2 ^ 128) : parse6 (text6 v) = some v := by
  have hlen : (groups 65536 8 v).length = 8 := groups_length _ _ _
  have h3 := compress_length hlen
  have hs : splitOn ':' (text6 v) = compress ((groups 65536 8 v).map hex) := by
    refine split_join ?_ fun p hp => (compress_parts _ p hp).1
    intro e; rw [e] at h3; simp at h3
  obtain ⟨l, h1, h2⟩ := compress_back hlen (groups_lt (by omega) 8 v)
  unfold parse6
  simp only [hs]
  rw [if_neg (by omega), v4Suffix_id fun p hp => (compress_parts _ p hp).2]
  simp only [h1, h2, Option.map_some]
  rw [ungroup_groups 65536 (by omega) 8 v (by simpa using h)]

/-- what is written is read again -/
theorem parseAddr_addrText (a : IP) : parseAddr a.ver (addrText a) = some a := by
  obtain ⟨v, x, h⟩ := a
  cases v with
  | v4 =>
    simp only [parseAddr, addrText, parse4_text4 h]
    rw [dif_pos h]
  | v6 =>
    simp only [parseAddr, addrText, parse6_text6 h]
    rw [dif_pos h]

theorem digits_slash (n : Nat) : '/' ∉ digits n := by
  intro h
  have := digitsF_dig n n _ h
  revert this; decide

theorem not_addrChar_slash : ¬ AddrChar '/' := by unfold AddrChar; decide

theorem addrText_slash (a : IP) : '/' ∉ addrText a := fun h =>
  not_addrChar_slash (parseAddr_chars (parseAddr_addrText a) _ h)

theorem parseNet_netText (n : Net) : parseNet n.ver (netText n) = some n := by
  have hs : splitOn '/' (netText n) = [addrText n.first, digits n.plen] := by
    rw [netText, splitOn_append _ (addrText_slash _), splitOn_nosep (digits_slash _)]
  have ha : parseAddr n.ver (addrText n.first) = some n.first := parseAddr_addrText n.first
  unfold parseNet
  rw [hs]
  simp only [ha]
  rw [dif_pos ⟨digitsF_ne _ _, List.all_eq_true.mpr (digitsF_dig _ _), by rw [valueOf_digits]; exact n.plen_le,
    by rw [valueOf_digits]; exact n.aligned⟩]
  simp only [valueOf_digits]
  rfl

theorem parseNet_addrText (a : IP) : parseNet a.ver (addrText a) = some a.toNet := by
  unfold parseNet
  rw [splitOn_nosep (addrText_slash a)]
  simp [parseAddr_addrText]

/-- an IPv6 text is no IPv4 text -/
theorem parse4_colon {t : List Char} (h : ':' ∈ t) : parse4 t = none := by
  apply Classical.byContradiction
  intro hn
  rcases mem_splitOn (sep := '.') h with h | ⟨p, hp, hcp⟩
  · cases h
  · unfold parse4 at hn
    simp only at hn
    split at hn
    · exact hn rfl
    · cases ha : allSome ((splitOn '.' t).map octet) with
      | none => rw [ha] at hn; exact hn rfl
      | some m =>
        have := octet_chars (allSome_mem ha _ (List.mem_map_of_mem hp)) _ hcp
        revert this; decide

theorem join_sep_mem {sep : Char} {p q : List Char} {l : List (List Char)} : sep ∈ joinWith sep (p :: q :: l) := by
  rw [joinWith]; simp

theorem text6_colon (v : Nat) : ':' ∈ text6 v := by
  have h3 := compress_length (groups_length 65536 8 v)
  unfold text6
  match h : compress ((groups 65536 8 v).map hex), h3 with
  | p :: q :: l, _ => exact join_sep_mem

theorem ipAddress_addrText (a : IP) : ipAddress (addrText a) = some a := by
  unfold ipAddress
  cases hv : a.ver with
  | v4 =>
    have := parseAddr_addrText a
    rw [hv] at this
    rw [this]; rfl
  | v6 =>
    have h6 := parseAddr_addrText a
    rw [hv] at h6
    have h4 : parseAddr .v4 (addrText a) = none := by
      have : ':' ∈ addrText a := by unfold addrText; rw [hv]; exact text6_colon _
      simp [parseAddr, parse4_colon this]
    rw [h4, h6]; rfl

theorem parseNet_v4_colon {t : List Char} (h : ':' ∈ t) : parseNet .v4 t = none := by
  unfold parseNet
  rcases mem_splitOn (sep := '/') h with h | ⟨p, hp, hcp⟩
  · cases h
  · match hs : splitOn '/' t with
    | [] => rfl
    | [a] =>
      rw [hs, List.mem_singleton] at hp
      subst hp
      simp [parseAddr, parse4_colon hcp]
    | [a, q] =>
      rw [hs] at hp
      simp only [List.mem_cons, List.not_mem_nil, or_false] at hp
      rcases hp with rfl | rfl
      · simp [parseAddr, parse4_colon hcp]
      · simp only
        cases parseAddr .v4 a with
        | none => rfl
        | some x =>
          simp only
          rw [dif_neg]
          rintro ⟨_, hd, _⟩
          have := List.all_eq_true.mp hd _ hcp
          revert this; decide
    | a :: b :: c :: l => rfl

theorem ipNetwork_netText (n : Net) : ipNetwork (netText n) = some n := by
  unfold ipNetwork
  cases hv : n.ver with
  | v4 =>
    have := parseNet_netText n
    rw [hv] at this
    rw [this]; rfl
  | v6 =>
    have h6 := parseNet_netText n
    rw [hv] at h6
    have h : ':' ∈ netText n := by
      have : ':' ∈ addrText n.first := by unfold addrText; rw [show n.first.ver = .v6 from hv]; exact text6_colon _
      unfold netText
      exact List.mem_append_left _ this
    rw [parseNet_v4_colon h, h6]; rfl

theorem ipNetwork_addrText (a : IP) : ipNetwork (addrText a) = some a.toNet := by
  unfold ipNetwork
  cases hv : a.ver with
  | v4 =>
    have := parseNet_addrText a
    rw [hv] at this
    rw [this]; rfl
  | v6 =>
    have h6 := parseNet_addrText a
    rw [hv] at h6
    have : ':' ∈ addrText a := by unfold addrText; rw [hv]; exact text6_colon _
    rw [parseNet_v4_colon this, h6]; rfl

theorem ipAddress_bad {t : List Char} {c : Char} (h : c ∈ t) (hc : ¬ AddrChar c) : ipAddress t = none := by
  unfold ipAddress
  cases h4 : parseAddr .v4 t with
  | some a => exact absurd (parseAddr_chars h4 c h) hc
  | none =>
    cases h6 : parseAddr .v6 t with
    | some a => exact absurd (parseAddr_chars h6 c h) hc
    | none => rfl

theorem ipNetwork_bad {t : List Char} {c : Char} (h : c ∈ t) (hc : ¬ AddrChar c) (hs : c ≠ '/') : ipNetwork t = none := by
  unfold ipNetwork
  cases h4 : parseNet .v4 t with
  | some a => exact absurd (parseNet_chars h4 c h) (by simp [hc, hs])
  | none =>
    cases h6 : parseNet .v6 t with
    | some a => exact absurd (parseNet_chars h6 c h) (by simp [hc, hs])
    | none => rfl

/-! ### the library, for Represent.lean -/

theorem hex_nice (n : Nat) : ∀ c ∈ hex n, c ∈ "0123456789abcdef.:/".toList := by
  intro c hc
  obtain ⟨k, hk, rfl⟩ := hexF_chars n n _ hc
  have : ∀ k, k < 16 → hexChar k ∈ "0123456789abcdef.:/".toList := by decide
  exact this k hk

theorem addrText_nice (a : IP) : ∀ c ∈ addrText a, c ∈ "0123456789abcdef.:/".toList := by
  intro c hc
  unfold addrText at hc
  split at hc
  · rcases mem_joinWith hc with rfl | ⟨p, hp, hcp⟩
    · decide
    · obtain ⟨n, _, rfl⟩ := List.mem_map.mp hp
      exact dig_mem (digitsF_dig n n _ hcp)
  · rcases mem_joinWith hc with rfl | ⟨p, hp, hcp⟩
    · decide
    · rcases compress_mem hp with rfl | h
      · cases hcp
      · obtain ⟨n, _, rfl⟩ := List.mem_map.mp h
        exact hex_nice n c hcp

theorem netText_nice (n : Net) : ∀ c ∈ netText n, c ∈ "0123456789abcdef.:/".toList := by
  intro c hc
  unfold netText at hc
  rcases List.mem_append.mp hc with h | h
  · exact addrText_nice _ c h
  · rcases List.mem_cons.mp h with rfl | h
    · decide
    · exact dig_mem (digitsF_dig _ _ _ h)

/-- the ipaddress library, with the texts it really writes and reads (see send_message.py:37) -/
def stdLib : IpLib where
  addrText := addrText
  netText := netText
  parseAddr := parseAddr
  parseNet := parseNet
  addr_back := parseAddr_addrText
  net_back := parseNet_netText
  addr_chars := addrText_nice
  net_chars := netText_nice

end PyLisp.IPText

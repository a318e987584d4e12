import Verif.DdtText
import Verif.Props.DdtRoot
/-
C71: what the text of a DDT root file says.
-/
namespace PyLisp.Props
open PyLisp

/-! ### Specification -/

/-- whitespace -/
def Blank (w : List Char) : Prop := ∀ c ∈ w, c ∈ [' ', '\t', '\n', '\x0b', '\x0c', '\r']

/-- a decimal number -/
def Decimal (w : List Char) : Prop := w ≠ [] ∧ ∀ c ∈ w, c ∈ "0123456789".toList

/-- characters of an address, and of a prefix -/
def AddressText (w : List Char) : Prop := w ≠ [] ∧ ∀ c ∈ w, c ∈ "0123456789abcdefABCDEF.:".toList
def PrefixText (w : List Char) : Prop := w ≠ [] ∧ ∀ c ∈ w, c ∈ "0123456789abcdefABCDEF.:/".toList

/-- the end of a line: nothing, or a comment -/
def Comment (w : List Char) : Prop := w = [] ∨ ∃ c, w = '#' :: c

/-- a line without content: whitespace and perhaps a comment -/
def EmptyLine (l : List Char) : Prop := ∃ w c, l = w ++ c ∧ Blank w ∧ Comment c

/-- a line with the four fields, separated by whitespace, with optional whitespace and comment around -/
def FieldsLine (l a b p x : List Char) : Prop :=
  ∃ w0 w1 w2 w3 w4 c, l = w0 ++ a ++ w1 ++ b ++ w2 ++ p ++ w3 ++ x ++ w4 ++ c ∧
    Blank w0 ∧ Blank w1 ∧ Blank w2 ∧ Blank w3 ∧ Blank w4 ∧ Comment c ∧ w1 ≠ [] ∧ w2 ≠ [] ∧ w3 ≠ [] ∧
    Decimal a ∧ Decimal b ∧ PrefixText p ∧ AddressText x

/-- the lines of a file: every line but the last ends with a newline, and no newline is elsewhere -/
inductive LinesOf : List Char → List (List Char) → Prop
  | nil : LinesOf [] []
  | last {l : List Char} : l ≠ [] → '\n' ∉ l → LinesOf l [l]
  | cons {l text : List Char} {ls : List (List Char)} : '\n' ∉ l → LinesOf text ls →
    LinesOf (l ++ '\n' :: text) ((l ++ ['\n']) :: ls)

/-- what lines say: nothing, or the fields of one delegation each -/
inductive Says (ipAddress : List Char → Option IP) (ipNetwork : List Char → Option Net) :
    List (List Char) → List DdtLine → Prop
  | nil : Says ipAddress ipNetwork [] []
  | empty {l : List Char} {ls : List (List Char)} {xs : List DdtLine} : EmptyLine l →
    Says ipAddress ipNetwork ls xs → Says ipAddress ipNetwork (l :: ls) xs
  | fields {l a b p x : List Char} {ls : List (List Char)} {xs : List DdtLine} :
    FieldsLine l a b p x → Says ipAddress ipNetwork ls xs →
    Says ipAddress ipNetwork (l :: ls)
      ({ inst := intOf a, afi := intOf b, pfx := ipNetwork p, addr := ipAddress x } :: xs)

/-! ### Lemmas -/

theorem isSpace_iff {c : Char} : isSpace c = true ↔ c ∈ [' ', '\t', '\n', '\x0b', '\x0c', '\r'] := by
  simp [isSpace, or_assoc]

theorem char_range {c lo hi : Char} : (lo ≤ c ∧ c ≤ hi) ↔ (lo.toNat ≤ c.toNat ∧ c.toNat ≤ hi.toNat) := by
  constructor <;> exact fun h => h

theorem isDigit_iff {c : Char} : isDigit c = true ↔ c ∈ "0123456789".toList := by
  constructor
  · intro h
    simp only [isDigit, Bool.and_eq_true, decide_eq_true_eq, char_range] at h
    have h1 : 48 ≤ c.toNat := h.1
    have h2 : c.toNat ≤ 57 := h.2
    have hc : c = Char.ofNat c.toNat := (Char.ofNat_toNat c).symm
    generalize c.toNat = n at h1 h2 hc
    have : n = 48 ∨ n = 49 ∨ n = 50 ∨ n = 51 ∨ n = 52 ∨ n = 53 ∨ n = 54 ∨ n = 55 ∨ n = 56 ∨ n = 57 := by
      omega
    rcases this with h | h | h | h | h | h | h | h | h | h <;> (subst h; rw [hc]; decide)
  · have : ∀ c ∈ "0123456789".toList, isDigit c = true := by decide
    exact this c

theorem isAddrChar_iff {c : Char} :
    isAddrChar c = true ↔ c ∈ "0123456789abcdefABCDEF.:".toList := by
  constructor
  · intro h
    simp only [isAddrChar, Bool.or_eq_true, Bool.and_eq_true, decide_eq_true_eq, char_range] at h
    rcases h with (((h | h) | h) | h) | h
    · have := isDigit_iff.mp h
      have key : ∀ c ∈ "0123456789".toList, c ∈ "0123456789abcdefABCDEF.:".toList := by decide
      exact key c this
    · have h1 : 97 ≤ c.toNat := h.1
      have h2 : c.toNat ≤ 102 := h.2
      have hc : c = Char.ofNat c.toNat := (Char.ofNat_toNat c).symm
      generalize c.toNat = n at h1 h2 hc
      have : n = 97 ∨ n = 98 ∨ n = 99 ∨ n = 100 ∨ n = 101 ∨ n = 102 := by omega
      rcases this with h | h | h | h | h | h <;> (subst h; rw [hc]; decide)
    · have h1 : 65 ≤ c.toNat := h.1
      have h2 : c.toNat ≤ 70 := h.2
      have hc : c = Char.ofNat c.toNat := (Char.ofNat_toNat c).symm
      generalize c.toNat = n at h1 h2 hc
      have : n = 65 ∨ n = 66 ∨ n = 67 ∨ n = 68 ∨ n = 69 ∨ n = 70 := by omega
      rcases this with h | h | h | h | h | h <;> (subst h; rw [hc]; decide)
    · subst h; decide
    · subst h; decide
  · have : ∀ c ∈ "0123456789abcdefABCDEF.:".toList, isAddrChar c = true := by decide
    exact this c

theorem isPrefixChar_iff {c : Char} :
    isPrefixChar c = true ↔ c ∈ "0123456789abcdefABCDEF.:/".toList := by
  have e : "0123456789abcdefABCDEF.:/".toList = "0123456789abcdefABCDEF.:".toList ++ ['/'] := by decide
  rw [isPrefixChar, Bool.or_eq_true, isAddrChar_iff, e, List.mem_append]
  simp

/-- a run of characters -/
def Run (p : Char → Bool) (a : List Char) : Prop := a ≠ [] ∧ ∀ c ∈ a, p c = true

/-- does not begin with such a character -/
def Ends (p : Char → Bool) (l : List Char) : Prop := ∀ c, l.head? = some c → p c = false

theorem takeWhile_run {p : Char → Bool} {a r : List Char} (ha : ∀ c ∈ a, p c = true) (hr : Ends p r) :
    (a ++ r).takeWhile p = a ∧ (a ++ r).dropWhile p = r := by
  induction a with
  | nil =>
    cases r with
    | nil => exact ⟨rfl, rfl⟩
    | cons c r => simp [hr c rfl]
  | cons c a ih =>
    obtain ⟨h1, h2⟩ := ih fun x hx => ha x (by simp [hx])
    simp [ha c (by simp), h1, h2]

theorem dropWhile_ends (p : Char → Bool) (l : List Char) : Ends p (l.dropWhile p) := by
  induction l with
  | nil => intro c h; cases h
  | cons x l ih =>
    rw [List.dropWhile_cons]
    split
    · exact ih
    · rename_i hx
      intro c h; cases h; simpa using hx

theorem mem_takeWhile' (p : Char → Bool) (l : List Char) : ∀ c ∈ l.takeWhile p, p c = true := by
  induction l with
  | nil => intro c h; cases h
  | cons x l ih =>
    rw [List.takeWhile_cons]
    split
    · rename_i hx
      intro c h
      rcases List.mem_cons.mp h with rfl | h
      · exact hx
      · exact ih c h
    · intro c h; cases h

theorem takeRun_iff {p : Char → Bool} {l a r : List Char} :
    takeRun p l = some (a, r) ↔ Run p a ∧ l = a ++ r ∧ Ends p r := by
  unfold takeRun
  constructor
  · intro h
    split at h
    · cases h
    · rename_i hne
      simp only [Option.some.injEq, Prod.mk.injEq] at h
      obtain ⟨rfl, rfl⟩ := h
      exact ⟨⟨hne, mem_takeWhile' p l⟩, (List.takeWhile_append_dropWhile).symm, dropWhile_ends p l⟩
  · rintro ⟨⟨hne, ha⟩, rfl, hr⟩
    obtain ⟨h1, h2⟩ := takeWhile_run ha hr
    rw [h1, h2, if_neg hne]

theorem ends_run {p q : Char → Bool} {a r : List Char} (h : Run q a)
    (hd : ∀ c, q c = true → p c = false) : Ends p (a ++ r) := by
  obtain ⟨hne, ha⟩ := h
  cases a with
  | nil => exact absurd rfl hne
  | cons x a =>
    intro c hc
    cases hc
    exact hd x (ha x (by simp))

theorem space_not {c : Char} (h : isSpace c = true) : isPrefixChar c = false := by
  have : ∀ c ∈ [' ', '\t', '\n', '\x0b', '\x0c', '\r'], isPrefixChar c = false := by decide
  exact this c (isSpace_iff.mp h)

theorem prefix_not {c : Char} (h : isPrefixChar c = true) : isSpace c = false := by
  cases hs : isSpace c with
  | false => rfl
  | true => rw [space_not hs] at h; cases h

theorem addr_prefix {c : Char} (h : isAddrChar c = true) : isPrefixChar c = true := by
  rw [isPrefixChar, h]; rfl

theorem digit_addr {c : Char} (h : isDigit c = true) : isAddrChar c = true := by
  simp [isAddrChar, h]

theorem digit_prefix {c : Char} (h : isDigit c = true) : isPrefixChar c = true :=
  addr_prefix (digit_addr h)

theorem space_digit {c : Char} (h : isSpace c = true) : isDigit c = false := by
  cases hd : isDigit c with
  | false => rfl
  | true => have := space_not h; rw [digit_prefix hd] at this; cases this

theorem ddtMatch_iff {l : List Char} {g : DdtGroups} : ddtMatch l = some g ↔
    ∃ w1 w2 w3, l = g.inst ++ (w1 ++ (g.afi ++ (w2 ++ (g.pfx ++ (w3 ++ g.addr))))) ∧
      Run isSpace w1 ∧ Run isSpace w2 ∧ Run isSpace w3 ∧ Run isDigit g.inst ∧ Run isDigit g.afi ∧
      Run isPrefixChar g.pfx ∧ Run isAddrChar g.addr := by
  simp only [ddtMatch, Option.bind_eq_bind, Option.bind_eq_some_iff, Prod.exists, takeRun_iff]
  constructor
  · rintro ⟨a, _, ⟨ha, rfl, _⟩, w1, _, ⟨hw1, rfl, _⟩, b, _, ⟨hb, rfl, _⟩, w2, _, ⟨hw2, rfl, _⟩, c, _,
      ⟨hc, rfl, _⟩, w3, _, ⟨hw3, rfl, _⟩, d, r, ⟨hd, rfl, _⟩, h⟩
    split at h
    · rename_i hr
      subst hr
      cases h
      exact ⟨w1, w2, w3, by rw [List.append_nil], hw1, hw2, hw3, ha, hb, hc, hd⟩
    · cases h
  · rintro ⟨w1, w2, w3, rfl, hw1, hw2, hw3, ha, hb, hc, hd⟩
    refine ⟨_, _, ⟨ha, rfl, ends_run hw1 fun c => space_digit⟩,
      _, _, ⟨hw1, rfl, ends_run hb fun c h => prefix_not (digit_prefix h)⟩,
      _, _, ⟨hb, rfl, ends_run hw2 fun c => space_digit⟩,
      _, _, ⟨hw2, rfl, ends_run hc fun c h => prefix_not h⟩,
      _, _, ⟨hc, rfl, ends_run hw3 fun c => space_not⟩,
      _, _, ⟨hw3, rfl, ?_⟩, g.addr, [], ⟨hd, (List.append_nil _).symm, fun c h => by cases h⟩, rfl⟩
    have := ends_run (r := []) hd fun c h => prefix_not (addr_prefix h)
    rwa [List.append_nil] at this

theorem blank_iff {w : List Char} : Blank w ↔ ∀ c ∈ w, isSpace c = true :=
  ⟨fun h c hc => isSpace_iff.mpr (h c hc), fun h c hc => isSpace_iff.mp (h c hc)⟩

theorem blank_no_hash {w : List Char} (h : Blank w) : '#' ∉ w := fun hc => by
  have := h _ hc
  revert this; decide

/-- the ends of the text are not whitespace -/
def Trimmed (m : List Char) : Prop := Ends isSpace m ∧ Ends isSpace m.reverse

theorem takeWhile_comment {m c : List Char} (hm : '#' ∉ m) (hc : Comment c) :
    (m ++ c).takeWhile (fun c => decide (c ≠ '#')) = m := by
  refine (takeWhile_run (fun x hx => ?_) ?_).1
  · rw [decide_eq_true_eq]; rintro rfl; exact hm hx
  rcases hc with rfl | ⟨c, rfl⟩
  · intro x h; cases h
  · intro x h; cases h; rfl

theorem stripLine_iff {l m : List Char} : stripLine l = m ↔
    ∃ w0 w1 c, l = w0 ++ (m ++ (w1 ++ c)) ∧ Blank w0 ∧ Blank w1 ∧ Comment c ∧ '#' ∉ m ∧ Trimmed m := by
  constructor
  · rintro rfl
    unfold stripLine
    generalize ht : l.takeWhile (fun c => decide (c ≠ '#')) = t
    have hl : l = t ++ l.dropWhile (fun c => decide (c ≠ '#')) := by
      rw [← ht, List.takeWhile_append_dropWhile]
    have hno : '#' ∉ t := fun h => by
      rw [← ht] at h
      have := mem_takeWhile' _ l _ h
      simp at this
    have hcom : Comment (l.dropWhile (fun c => decide (c ≠ '#'))) := by
      have := dropWhile_ends (fun c => decide (c ≠ '#')) l
      cases hd : l.dropWhile (fun c => decide (c ≠ '#')) with
      | nil => exact .inl rfl
      | cons x r =>
        rw [hd] at this
        have := this x rfl
        exact .inr ⟨r, by simp at this; rw [this]⟩
    have h1 : t = t.takeWhile isSpace ++ t.dropWhile isSpace := List.takeWhile_append_dropWhile.symm
    generalize hu : t.dropWhile isSpace = u at h1
    have h2 : u.reverse = u.reverse.takeWhile isSpace ++ u.reverse.dropWhile isSpace :=
      List.takeWhile_append_dropWhile.symm
    have h3 : u = (u.reverse.dropWhile isSpace).reverse ++ (u.reverse.takeWhile isSpace).reverse := by
      rw [← List.reverse_append, ← h2, List.reverse_reverse]
    have hue : Ends isSpace u := hu ▸ dropWhile_ends isSpace t
    refine ⟨t.takeWhile isSpace, (u.reverse.takeWhile isSpace).reverse,
      l.dropWhile (fun c => decide (c ≠ '#')), ?_, blank_iff.mpr (mem_takeWhile' _ _), ?_, hcom, ?_, ?_, ?_⟩
    · rw [← List.append_assoc (List.reverse _), ← h3, ← List.append_assoc, ← h1, ← hl]
    · exact blank_iff.mpr fun c hc => mem_takeWhile' _ _ c (List.mem_reverse.mp hc)
    · intro h
      apply hno
      rw [h1, h3]
      exact List.mem_append_right _ (List.mem_append_left _ h)
    · intro c hc
      apply hue c
      rw [h3]
      cases hx : (u.reverse.dropWhile isSpace).reverse with
      | nil => rw [hx] at hc; cases hc
      | cons y ys => rw [hx] at hc; cases hc; rfl
    · rw [List.reverse_reverse]
      exact dropWhile_ends isSpace _
  · rintro ⟨w0, w1, c, rfl, h0, h1, hc, hm, ht1, ht2⟩
    unfold stripLine
    have e1 : w0 ++ (m ++ (w1 ++ c)) = (w0 ++ (m ++ w1)) ++ c := by simp
    rw [e1, takeWhile_comment (by
      intro h
      rcases List.mem_append.mp h with h | h
      · exact blank_no_hash h0 h
      · rcases List.mem_append.mp h with h | h
        · exact hm h
        · exact blank_no_hash h1 h) hc]
    have e2 : (w0 ++ (m ++ w1)).dropWhile isSpace = if m = [] then [] else m ++ w1 := by
      split
      · rename_i hm0
        subst hm0
        have := (takeWhile_run (p := isSpace) (a := w0 ++ w1) (r := []) (fun c hc => by
          rcases List.mem_append.mp hc with h | h
          · exact blank_iff.mp h0 c h
          · exact blank_iff.mp h1 c h) (fun c h => by cases h)).2
        simpa using this
      · rename_i hm0
        refine (takeWhile_run (blank_iff.mp h0) ?_).2
        cases m with
        | nil => exact absurd rfl hm0
        | cons x m => intro c hc; cases hc; exact ht1 x rfl
    rw [e2]
    split
    · rename_i hm0; rw [hm0]; rfl
    · rw [List.reverse_append, (takeWhile_run (fun c hc => blank_iff.mp h1 c (List.mem_reverse.mp hc)) ht2).2,
        List.reverse_reverse]

theorem fieldsLine_iff {l : List Char} {g : DdtGroups} :
    FieldsLine l g.inst g.afi g.pfx g.addr ↔ ddtMatch (stripLine l) = some g := by
  have hrun : ∀ {w : List Char}, Blank w ∧ w ≠ [] ↔ Run isSpace w := fun {w} =>
    ⟨fun h => ⟨h.2, blank_iff.mp h.1⟩, fun h => ⟨blank_iff.mpr h.2, h.1⟩⟩
  have hdec : ∀ {w : List Char}, Decimal w ↔ Run isDigit w := fun {w} =>
    and_congr Iff.rfl (forall_congr' fun c => forall_congr' fun _ => isDigit_iff.symm)
  have hadr : ∀ {w : List Char}, AddressText w ↔ Run isAddrChar w := fun {w} =>
    and_congr Iff.rfl (forall_congr' fun c => forall_congr' fun _ => isAddrChar_iff.symm)
  have hpfx : ∀ {w : List Char}, PrefixText w ↔ Run isPrefixChar w := fun {w} =>
    and_congr Iff.rfl (forall_congr' fun c => forall_congr' fun _ => isPrefixChar_iff.symm)
  rw [ddtMatch_iff]
  constructor
  · rintro ⟨w0, w1, w2, w3, w4, c, hl, h0, h1, h2, h3, h4, hc, n1, n2, n3, ha, hb, hp, hx⟩
    refine ⟨w1, w2, w3, stripLine_iff.mpr ⟨w0, w4, c, by rw [hl]; simp, h0, h4, hc, ?_, ?_, ?_⟩,
      hrun.mp ⟨h1, n1⟩, hrun.mp ⟨h2, n2⟩, hrun.mp ⟨h3, n3⟩, hdec.mp ha, hdec.mp hb, hpfx.mp hp, hadr.mp hx⟩
    · have hno : isPrefixChar '#' = false := by decide
      simp only [List.mem_append, not_or]
      refine ⟨fun h => ?_, blank_no_hash h1, fun h => ?_, blank_no_hash h2, fun h => ?_, blank_no_hash h3,
        fun h => ?_⟩
      · have := digit_prefix ((hdec.mp ha).2 _ h); rw [hno] at this; cases this
      · have := digit_prefix ((hdec.mp hb).2 _ h); rw [hno] at this; cases this
      · have := (hpfx.mp hp).2 _ h; rw [hno] at this; cases this
      · have := addr_prefix ((hadr.mp hx).2 _ h); rw [hno] at this; cases this
    · exact ends_run (hdec.mp ha) fun c h => prefix_not (digit_prefix h)
    · simp only [List.reverse_append, List.append_assoc]
      refine ends_run (q := isAddrChar) ⟨?_, fun c hc => ?_⟩ fun c h => prefix_not (addr_prefix h)
      · intro h; exact hx.1 (List.reverse_eq_nil_iff.mp h)
      · exact (hadr.mp hx).2 c (List.mem_reverse.mp hc)
  · rintro ⟨w1, w2, w3, hs, h1, h2, h3, ha, hb, hp, hx⟩
    obtain ⟨w0, w4, c, hl, h0, h4, hc, _, _⟩ := stripLine_iff.mp hs
    exact ⟨w0, w1, w2, w3, w4, c, by rw [hl]; simp, h0, (hrun.mpr h1).1, (hrun.mpr h2).1, (hrun.mpr h3).1, h4,
      hc, h1.1, h2.1, h3.1, hdec.mpr ha, hdec.mpr hb, hpfx.mpr hp, hadr.mpr hx⟩

theorem emptyLine_iff {l : List Char} : EmptyLine l ↔ stripLine l = [] := by
  rw [stripLine_iff]
  constructor
  · rintro ⟨w, c, rfl, hw, hc⟩
    exact ⟨w, [], c, rfl, hw, (fun c h => by cases h), hc, (fun h => by cases h), (fun c h => by cases h),
      fun c h => by cases h⟩
  · rintro ⟨w0, w1, c, rfl, h0, h1, hc, _, _⟩
    refine ⟨w0 ++ w1, c, by simp, fun x hx => ?_, hc⟩
    rcases List.mem_append.mp hx with h | h
    · exact h0 x h
    · exact h1 x h

theorem fileLines_spec (text : List Char) : ∀ (cur : List Char), '\n' ∉ cur →
    LinesOf (cur ++ text) (fileLines cur text) := by
  induction text with
  | nil =>
    intro cur h
    rw [List.append_nil, fileLines]
    split
    · rename_i hc; subst hc; exact .nil
    · rename_i hc; exact .last hc h
  | cons c text ih =>
    intro cur h
    rw [fileLines]
    split
    · rename_i hc
      subst hc
      exact .cons h (ih [] (by simp))
    · rename_i hc
      have := ih (cur ++ [c]) (by simp [h]; exact fun h' => hc h'.symm)
      simpa using this

theorem split_newline {l l' t t' : List Char} (h : '\n' ∉ l) (h' : '\n' ∉ l')
    (e : l ++ '\n' :: t = l' ++ '\n' :: t') : l = l' ∧ t = t' := by
  induction l generalizing l' with
  | nil =>
    cases l' with
    | nil => simp at e; exact ⟨rfl, e⟩
    | cons c l' => simp at e; exact absurd (by rw [← e.1]; simp) h'
  | cons c l ih =>
    cases l' with
    | nil => simp at e; exact absurd (by simp [e.1]) h
    | cons c' l' =>
      simp at e h h'
      obtain ⟨rfl, e⟩ := e
      obtain ⟨rfl, rfl⟩ := ih h.2 h'.2 e
      exact ⟨rfl, rfl⟩

theorem linesOf_unique {text : List Char} {ls ls' : List (List Char)} (h : LinesOf text ls)
    (h' : LinesOf text ls') : ls = ls' := by
  induction h generalizing ls' with
  | nil =>
    generalize ht : ([] : List Char) = t at h'
    cases h' with
    | nil => rfl
    | last h1 _ => exact absurd ht.symm h1
    | cons _ _ => simp at ht
  | @last l h1 h2 =>
    cases h' with
    | nil => exact absurd rfl h1
    | last _ _ => rfl
    | cons _ _ => simp at h2
  | @cons l text ls h1 h2 ih =>
    generalize ht : l ++ '\n' :: text = t at h'
    cases h' with
    | nil => simp at ht
    | last _ h3 => subst ht; simp at h3
    | cons h3 h4 =>
      obtain ⟨rfl, rfl⟩ := split_newline h1 h3 ht
      rw [ih h4]

theorem loadTextLines_iff {ia : List Char → Option IP} {nw : List Char → Option Net}
    (ls : List (List Char)) : ∀ (st st' : Instances), loadTextLines ia nw st ls = .ok st' ↔
      ∃ xs, Says ia nw ls xs ∧ loadLines st xs = .ok st' := by
  induction ls with
  | nil =>
    intro st st'
    constructor
    · intro h; exact ⟨[], .nil, h⟩
    · rintro ⟨_, h, e⟩; cases h; exact e
  | cons l ls ih =>
    intro st st'
    have hempty : stripLine l = [] → ∀ g, ddtMatch (stripLine l) = some g → False := by
      intro h g hg
      rw [h] at hg
      cases hg
    rw [loadTextLines, readDdtLine]
    by_cases he : stripLine l = []
    · rw [if_pos he]
      simp only [ih]
      constructor
      · rintro ⟨xs, h, e⟩; exact ⟨xs, .empty (emptyLine_iff.mpr he) h, e⟩
      · rintro ⟨xs, h, e⟩
        cases h with
        | empty _ h => exact ⟨xs, h, e⟩
        | @fields _ a b p x _ _ hf h =>
          exact (hempty he ⟨a, b, p, x⟩ (fieldsLine_iff.mp hf)).elim
    · rw [if_neg he]
      cases hm : ddtMatch (stripLine l) with
      | none =>
        simp only [reduceCtorEq, false_iff]
        rintro ⟨xs, h, e⟩
        cases h with
        | empty h _ => exact he (emptyLine_iff.mp h)
        | @fields _ a b p x _ _ hf h =>
          have := fieldsLine_iff (g := ⟨a, b, p, x⟩).mp hf
          rw [hm] at this; cases this
      | some g =>
        simp only
        constructor
        · intro h
          split at h
          · cases h
          · rename_i st1 hl
            obtain ⟨xs, h1, h2⟩ := (ih _ _).mp h
            refine ⟨_, .fields (fieldsLine_iff.mpr hm) h1, ?_⟩
            rw [loadLines, hl]; exact h2
        · rintro ⟨xs, h, e⟩
          cases h with
          | empty h _ => exact absurd (emptyLine_iff.mp h) he
          | @fields _ a b p x _ xs hf h =>
            have := fieldsLine_iff (g := ⟨a, b, p, x⟩).mp hf
            rw [hm] at this
            cases this
            rw [loadLines] at e
            split at e
            · cases e
            · rename_i st1 hl
              simp only [hl]
              exact (ih _ _).mpr ⟨xs, h, e⟩

/-! ### C71 -/

/-- C71: loading the text of a file: it gives exactly what loading the delegations its lines say gives;
whenever a line is neither empty nor has the four fields, it fails. -/
theorem ddt_text_loads_iff (ipAddress : List Char → Option IP) (ipNetwork : List Char → Option Net)
    (text : List Char) (st : Instances) :
    loadDdtText ipAddress ipNetwork text = .ok st ↔
      ∃ ls xs, LinesOf text ls ∧ Says ipAddress ipNetwork ls xs ∧ loadDdtRoot xs = .ok st := by
  have hl := fileLines_spec text [] (by simp)
  rw [List.nil_append] at hl
  unfold loadDdtText loadDdtRoot
  rw [loadTextLines_iff]
  constructor
  · rintro ⟨xs, h1, h2⟩; exact ⟨_, xs, hl, h1, h2⟩
  · rintro ⟨ls, xs, h1, h2, h3⟩
    rw [linesOf_unique hl h1]
    exact ⟨xs, h2, h3⟩

theorem says_append {ia : List Char → Option IP} {nw : List Char → Option Net} {ls ms : List (List Char)}
    {xs ys : List DdtLine} (h : Says ia nw ls xs) (h' : Says ia nw ms ys) : Says ia nw (ls ++ ms) (xs ++ ys) := by
  induction h with
  | nil => exact h'
  | empty h1 _ ih => exact .empty h1 ih
  | fields h1 _ ih => exact .fields h1 ih

/-- the ways to read one line -/
theorem readDdtLine_cases (ia : List Char → Option IP) (nw : List Char → Option Net) (l : List Char) :
    (readDdtLine ia nw l = .ok none ∧ EmptyLine l) ∨
    (∃ y, readDdtLine ia nw l = .ok (some y) ∧ Says ia nw [l] [y] ∧ ¬ EmptyLine l ∧
      ∀ y', Says ia nw [l] [y'] → y' = y) ∨
    (readDdtLine ia nw l = .error .value ∧ ¬ EmptyLine l ∧ ∀ a b p x, ¬ FieldsLine l a b p x) := by
  unfold readDdtLine
  by_cases he : stripLine l = []
  · rw [if_pos he]; exact .inl ⟨rfl, emptyLine_iff.mpr he⟩
  · rw [if_neg he]
    have hne : ¬ EmptyLine l := fun h => he (emptyLine_iff.mp h)
    cases hm : ddtMatch (stripLine l) with
    | none =>
      refine .inr (.inr ⟨rfl, hne, fun a b p x hf => ?_⟩)
      have := fieldsLine_iff (g := ⟨a, b, p, x⟩).mp hf
      rw [hm] at this; cases this
    | some g =>
      refine .inr (.inl ⟨_, rfl, .fields (fieldsLine_iff.mpr hm) .nil, hne, fun y' h => ?_⟩)
      cases h with
      | empty h _ => exact absurd h hne
      | @fields _ a b p x _ _ hf h =>
        cases h
        have := fieldsLine_iff (g := ⟨a, b, p, x⟩).mp hf
        rw [hm] at this
        cases this
        rfl

theorem loadTextLines_append (ia : List Char → Option IP) (nw : List Char → Option Net) (ls ms : List (List Char)) :
    ∀ st : Instances, loadTextLines ia nw st (ls ++ ms) =
      match loadTextLines ia nw st ls with
      | .error e => .error e
      | .ok st => loadTextLines ia nw st ms := by
  induction ls with
  | nil => intro st; rfl
  | cons l ls ih =>
    intro st
    rw [List.cons_append, loadTextLines, loadTextLines]
    cases readDdtLine ia nw l with
    | error e => rfl
    | ok o =>
      cases o with
      | none => exact ih st
      | some y =>
        simp only
        cases loadLine st y with
        | error e => rfl
        | ok st' => exact ih st'

/-- C71/C44: a text that does not load raises an exception that says what is wrong with its first bad line: ValueError
if it is neither empty nor has the four fields, and else the exception for what it says (`LineError`). -/
theorem ddt_text_raises (ipAddress : List Char → Option IP) (ipNetwork : List Char → Option Net)
    (text : List Char) (e : Err) :
    loadDdtText ipAddress ipNetwork text = .error e ↔
      ∃ pre l post xs, LinesOf text (pre ++ l :: post) ∧ Says ipAddress ipNetwork pre xs ∧
        (∃ st, loadDdtRoot xs = .ok st) ∧
        ((¬ EmptyLine l ∧ (∀ a b p x, ¬ FieldsLine l a b p x) ∧ e = .value) ∨
          ∃ y, Says ipAddress ipNetwork [l] [y] ∧ LineError (xs.flatMap delegations) y e) := by
  have hl := fileLines_spec text [] (by simp)
  rw [List.nil_append] at hl
  unfold loadDdtText
  constructor
  · intro h
    have key : ∀ (post pre : List (List Char)) (xs : List DdtLine) (st : Instances),
        Says ipAddress ipNetwork pre xs → loadDdtRoot xs = .ok st →
        loadTextLines ipAddress ipNetwork st post = .error e →
        ∃ pre' l post' xs, pre ++ post = pre' ++ l :: post' ∧ Says ipAddress ipNetwork pre' xs ∧
          (∃ st, loadDdtRoot xs = .ok st) ∧
          ((¬ EmptyLine l ∧ (∀ a b p x, ¬ FieldsLine l a b p x) ∧ e = .value) ∨
            ∃ y, Says ipAddress ipNetwork [l] [y] ∧ LineError (xs.flatMap delegations) y e) := by
      intro post
      induction post with
      | nil => intro pre xs st _ _ h; cases h
      | cons l post ih =>
        intro pre xs st hs hx h
        rw [loadTextLines] at h
        rcases readDdtLine_cases ipAddress ipNetwork l with ⟨hr, he⟩ | ⟨y, hr, hy, _, _⟩ | ⟨hr, h1, h2⟩
        · rw [hr] at h
          have := ih (pre ++ [l]) xs st (by simpa using says_append hs (.empty he .nil)) hx h
          rwa [List.append_assoc] at this
        · rw [hr] at h
          simp only at h
          split at h
          · rename_i e' he
            cases h
            exact ⟨pre, l, post, xs, rfl, hs, ⟨st, hx⟩, .inr ⟨y, hy, (lineError_iff (loaded_good hx) y e).mp he⟩⟩
          · rename_i st2 h2
            have hx2 : loadDdtRoot (xs ++ [y]) = .ok st2 := by
              unfold loadDdtRoot
              rw [loadLines_append]
              have hx : loadLines (fun _ => none) xs = .ok st := hx
              rw [hx]
              simp only [loadLines, h2]
            have := ih (pre ++ [l]) (xs ++ [y]) st2 (says_append hs hy) hx2 h
            rwa [List.append_assoc] at this
        · rw [hr] at h
          cases h
          exact ⟨pre, l, post, xs, rfl, hs, ⟨st, hx⟩, .inl ⟨h1, h2, rfl⟩⟩
    obtain ⟨pre, l, post, xs, h1, h2, h3, h4⟩ := key _ [] [] (fun _ => none) .nil rfl h
    rw [List.nil_append] at h1
    exact ⟨pre, l, post, xs, h1 ▸ hl, h2, h3, h4⟩
  · rintro ⟨pre, l, post, xs, h1, h2, ⟨st, h3⟩, h4⟩
    rw [linesOf_unique hl h1, loadTextLines_append]
    have hpre : loadTextLines ipAddress ipNetwork (fun _ => none) pre = .ok st :=
      (loadTextLines_iff pre _ st).mpr ⟨xs, h2, h3⟩
    rw [hpre]
    simp only [loadTextLines]
    rcases readDdtLine_cases ipAddress ipNetwork l with ⟨hr, he⟩ | ⟨y, hr, hy, hne, hu⟩ | ⟨hr, hn1, hn2⟩
    · rcases h4 with ⟨h, _⟩ | ⟨y, hy, _⟩
      · exact absurd he h
      · exfalso
        cases hy with
        | empty _ h => cases h
        | @fields _ a b p x _ _ hf _ =>
          have hg := fieldsLine_iff (g := ⟨a, b, p, x⟩).mp hf
          rw [emptyLine_iff.mp he] at hg
          cases hg
    · rw [hr]
      rcases h4 with ⟨_, h, _⟩ | ⟨y', hy', hle⟩
      · cases hy with
        | empty _ h => cases h
        | fields hf _ => exact absurd hf (h _ _ _ _)
      · rw [hu y' hy'] at hle
        simp only [(lineError_iff (loaded_good h3) y e).mpr hle]
    · rw [hr]
      rcases h4 with ⟨_, _, rfl⟩ | ⟨y, hy, _⟩
      · rfl
      · cases hy with
        | empty h _ => exact absurd h hn1
        | fields hf _ => exact absurd hf (hn2 _ _ _ _)

/-- C71: a text has one reading: its lines, what they say and the fields of every line are determined. -/
theorem ddt_text_unambiguous (ipAddress : List Char → Option IP) (ipNetwork : List Char → Option Net)
    {text : List Char} {ls ls' : List (List Char)} {xs xs' : List DdtLine} (h1 : LinesOf text ls)
    (h2 : Says ipAddress ipNetwork ls xs) (h1' : LinesOf text ls')
    (h2' : Says ipAddress ipNetwork ls' xs') : ls = ls' ∧ xs = xs' := by
  obtain rfl := linesOf_unique h1 h1'
  refine ⟨rfl, ?_⟩
  clear h1 h1'
  induction h2 generalizing xs' with
  | nil => cases h2'; rfl
  | empty he _ ih =>
    cases h2' with
    | empty _ h => exact ih h
    | @fields _ a b p x _ _ hf h =>
      have := fieldsLine_iff (g := ⟨a, b, p, x⟩).mp hf
      rw [emptyLine_iff.mp he] at this
      cases this
  | @fields l a b p x ls xs hf _ ih =>
    have h1 := fieldsLine_iff (g := ⟨a, b, p, x⟩).mp hf
    cases h2' with
    | empty he _ =>
      rw [emptyLine_iff.mp he] at h1
      cases h1
    | @fields _ a' b' p' x' _ _ hf' h =>
      have h2 := fieldsLine_iff (g := ⟨a', b', p', x'⟩).mp hf'
      rw [h1] at h2
      cases h2
      rw [ih h]

/-- C71: comments, whitespace around and between the fields, empty lines and leading zeroes do not matter:
two texts whose lines say the same delegations load to the same result. -/
theorem ddt_text_same (ipAddress : List Char → Option IP) (ipNetwork : List Char → Option Net)
    {text text' : List Char} {ls ls' : List (List Char)} {xs : List DdtLine} (h1 : LinesOf text ls)
    (h2 : Says ipAddress ipNetwork ls xs) (h1' : LinesOf text' ls')
    (h2' : Says ipAddress ipNetwork ls' xs) (st : Instances) :
    loadDdtText ipAddress ipNetwork text = .ok st ↔ loadDdtText ipAddress ipNetwork text' = .ok st := by
  rw [ddt_text_loads_iff, ddt_text_loads_iff]
  constructor
  · rintro ⟨l, x, a, b, c⟩
    obtain ⟨rfl, rfl⟩ := ddt_text_unambiguous ipAddress ipNetwork h1 h2 a b
    exact ⟨_, _, h1', h2', c⟩
  · rintro ⟨l, x, a, b, c⟩
    obtain ⟨rfl, rfl⟩ := ddt_text_unambiguous ipAddress ipNetwork h1' h2' a b
    exact ⟨_, _, h1, h2, c⟩

theorem digit_value {n : Nat} (h : n < 10) : n.digitChar.toNat - '0'.toNat = n := by
  have : n = 0 ∨ n = 1 ∨ n = 2 ∨ n = 3 ∨ n = 4 ∨ n = 5 ∨ n = 6 ∨ n = 7 ∨ n = 8 ∨ n = 9 := by omega
  rcases this with h | h | h | h | h | h | h | h | h | h <;> (subst h; rfl)

/-- C71: the numbers are decimal numbers: the value of the decimal digits of `n`, with any number of zeroes
before them, is `n`. -/
theorem decimal_value (n k : Nat) : intOf (List.replicate k '0' ++ Nat.toDigits 10 n) = n := by
  have key : ∀ n, (Nat.toDigits 10 n).foldl (fun n c => 10 * n + (c.toNat - '0'.toNat)) 0 = n := by
    intro n
    induction n using Nat.strongRecOn with
    | _ n ih =>
      by_cases h : n < 10
      · rw [Nat.toDigits_of_lt_base h]
        simp only [List.foldl_cons, List.foldl_nil, digit_value h]
        omega
      · rw [Nat.toDigits_of_base_le (by decide) (by omega), List.foldl_append, ih (n / 10) (by omega)]
        simp only [List.foldl_cons, List.foldl_nil, digit_value (Nat.mod_lt n (by decide : 0 < 10))]
        omega
  have hz : ∀ k, (List.replicate k '0').foldl (fun n c => 10 * n + (c.toNat - '0'.toNat)) 0 = 0 := by
    intro k
    induction k with
    | zero => rfl
    | succ k ih => rw [List.replicate_succ, List.foldl_cons]; exact ih
  rw [intOf, List.foldl_append, hz, key]

/-! ### The hypotheses are met -/

/-- a file with a comment, an empty line, tabs, a carriage return and no newline at the end -/
def exDdtText : List Char := "# roots\n\n 0 \t01  10.0.0.0/8 192.0.2.1 # a\r\n0 1 10.0.0.0/8\t192.0.2.2".toList

/-- stand-ins for the ipaddress library that know three texts -/
def exIpAddress (t : List Char) : Option IP :=
  if t = "192.0.2.1".toList then some (.v4 0xc0000201)
  else if t = "192.0.2.2".toList then some (.v4 0xc0000202) else none
def exIpNetwork (t : List Char) : Option Net :=
  if t = "10.0.0.0/8".toList then some ⟨.v4, 0x0a000000, 8, by decide, by decide, by decide⟩ else none

example : ∃ ls, LinesOf exDdtText ls ∧ Says exIpAddress exIpNetwork ls
    [⟨0, 1, exIpNetwork "10.0.0.0/8".toList, some (.v4 0xc0000201)⟩,
      ⟨0, 1, exIpNetwork "10.0.0.0/8".toList, some (.v4 0xc0000202)⟩] := by
  refine ⟨["# roots\n".toList, "\n".toList, " 0 \t01  10.0.0.0/8 192.0.2.1 # a\r\n".toList,
    "0 1 10.0.0.0/8\t192.0.2.2".toList], ?_, ?_⟩
  · have := fileLines_spec exDdtText [] (by simp)
    rw [show fileLines [] exDdtText = ["# roots\n".toList, "\n".toList,
      " 0 \t01  10.0.0.0/8 192.0.2.1 # a\r\n".toList, "0 1 10.0.0.0/8\t192.0.2.2".toList] by
        decide +kernel] at this
    exact this
  · refine .empty (emptyLine_iff.mpr (by decide +kernel)) (.empty (emptyLine_iff.mpr (by decide +kernel))
      (.fields (a := ['0']) (b := ['0', '1']) (p := "10.0.0.0/8".toList) (x := "192.0.2.1".toList)
        (fieldsLine_iff (g := ⟨['0'], ['0', '1'], "10.0.0.0/8".toList, "192.0.2.1".toList⟩).mpr
          (by decide +kernel))
      (.fields (a := ['0']) (b := ['1']) (p := "10.0.0.0/8".toList) (x := "192.0.2.2".toList)
        (fieldsLine_iff (g := ⟨['0'], ['1'], "10.0.0.0/8".toList, "192.0.2.2".toList⟩).mpr
          (by decide +kernel)) .nil)))

-- it loads
example : isOk (loadDdtText exIpAddress exIpNetwork exDdtText) = true := by decide +kernel
-- a line with a missing field does not
example : isOk (loadDdtText exIpAddress exIpNetwork "0 1 10.0.0.0/8".toList) = false := by decide +kernel
-- the exceptions of three bad files
example : ((loadDdtText exIpAddress exIpNetwork "0 1 10.0.0.0/8 192.0.2.1\nroots".toList) matches .error .value) ∧
    ((loadDdtText exIpAddress exIpNetwork "0 2 10.0.0.0/8 192.0.2.1".toList) matches .error .notMine) ∧
    ((loadDdtText exIpAddress exIpNetwork "0 3 10.0.0.0/8 192.0.2.1".toList) matches .error .value) := by
  decide +kernel

end PyLisp.Props

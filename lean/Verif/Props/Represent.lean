import Verif.Represent
/-
C95: `repr()` of packets, messages, records and addresses, evaluated again.
-/
namespace PyLisp.Rep

/-! ### characters and numbers -/

theorem ofNat_toNat (n : Nat) (h : n < 128) : (Char.ofNat n).toNat = n := by
  have hv : n.isValidChar := by left; omega
  unfold Char.ofNat
  rw [dif_pos hv]
  show (Char.ofNatAux n hv).val.toNat = n
  unfold Char.ofNatAux
  simp [UInt32.toNat]

theorem char_ne {n : Nat} (h : n < 128) {c : Char} (hc : c.toNat ≠ n) : Char.ofNat n ≠ c := by
  intro e; exact hc (by rw [← e, ofNat_toNat n h])

theorem isDig_digit (k : Nat) (h : k < 10) : isDig (digit k) = true := by
  unfold isDig digit
  rw [ofNat_toNat _ (by omega)]
  simp; omega

theorem toNat_digit (k : Nat) (h : k < 10) : (digit k).toNat - 48 = k := by
  unfold digit
  rw [ofNat_toNat _ (by omega)]
  omega

theorem digitsF_dig : ∀ (f n : Nat), ∀ c ∈ digitsF f n, isDig c = true
  | 0, n => by
    intro c hc
    simp only [digitsF, List.mem_singleton] at hc
    subst hc; exact isDig_digit _ (Nat.mod_lt _ (by decide))
  | f + 1, n => by
    intro c hc
    unfold digitsF at hc
    split at hc
    · simp only [List.mem_singleton] at hc; subst hc; exact isDig_digit _ ‹_›
    · rcases List.mem_append.mp hc with h | h
      · exact digitsF_dig f _ c h
      · simp only [List.mem_singleton] at h; subst h; exact isDig_digit _ (Nat.mod_lt _ (by decide))

theorem valueOf_snoc (w : List Char) (c : Char) : valueOf (w ++ [c]) = 10 * valueOf w + (c.toNat - 48) := by
  simp [valueOf, List.foldl_append]

theorem valueOf_digitsF : ∀ (f n : Nat), n ≤ f → valueOf (digitsF f n) = n
  | 0, n, h => by
    have : n = 0 := by omega
    subst this; decide
  | f + 1, n, h => by
    unfold digitsF
    split
    · rename_i hn
      simp only [valueOf, List.foldl_cons, List.foldl_nil, toNat_digit _ hn]; omega
    · rw [valueOf_snoc, valueOf_digitsF f (n / 10) (by omega), toNat_digit _ (Nat.mod_lt _ (by decide))]
      omega

theorem digitsF_ne : ∀ (f n : Nat), digitsF f n ≠ []
  | 0, n => by simp [digitsF]
  | f + 1, n => by unfold digitsF; split <;> simp

/-- no leading zero -/
theorem digitsF_head : ∀ (f n : Nat), n ≤ f → 1 ≤ n → ∀ w, digitsF f n ≠ '0' :: w
  | 0, n, h, h1, w => by omega
  | f + 1, n, h, h1, w => by
    unfold digitsF
    split
    · rename_i hn
      intro e
      have : digit n = '0' := (List.cons.inj e).1
      have h2 := toNat_digit n hn
      rw [this] at h2
      have : ('0' : Char).toNat - 48 = 0 := by decide
      omega
    · intro e
      cases hd : digitsF f (n / 10) with
      | nil => exact digitsF_ne f _ hd
      | cons c t =>
        rw [hd] at e
        have : c = '0' := (List.cons.inj e).1
        subst this
        exact digitsF_head f (n / 10) (by omega) (by omega) t hd

theorem digits_zero_len (n : Nat) (w : List Char) (h : digits n = '0' :: w) : w = [] := by
  by_cases h1 : 1 ≤ n
  · exact absurd h (digitsF_head n n (Nat.le_refl _) h1 w)
  · have : n = 0 := by omega
    subst this
    have : digits 0 = ['0'] := by decide
    rw [this] at h
    exact (List.cons.inj h).2.symm

theorem takeWhile_run {p : Char → Bool} : ∀ (w s : List Char), (∀ c ∈ w, p c = true) → (∀ c s', s = c :: s' → p c = false) →
    (w ++ s).takeWhile p = w ∧ (w ++ s).dropWhile p = s
  | [], s, _, hs => by
    cases s with
    | nil => exact ⟨rfl, rfl⟩
    | cons c s' => simp [hs c s' rfl]
  | c :: w, s, hw, hs => by
    have ih := takeWhile_run w s (fun c h => hw c (List.mem_cons_of_mem _ h)) hs
    have hc := hw c List.mem_cons_self
    simp [hc, ih.1, ih.2]

/-- what may follow an expression -/
def Stop (s : List Char) : Prop := s = [] ∨ (∃ r, s = ',' :: r) ∨ (∃ r, s = ')' :: r) ∨ ∃ r, s = ']' :: r

theorem Stop.not_name {s : List Char} (h : Stop s) : ∀ c s', s = c :: s' → isNameChar c = false := by
  rintro c s' rfl
  rcases h with h | ⟨r, h⟩ | ⟨r, h⟩ | ⟨r, h⟩
  · cases h
  all_goals (obtain ⟨rfl, rfl⟩ := List.cons.inj h; rfl)

theorem Stop.not_dig {s : List Char} (h : Stop s) : ∀ c s', s = c :: s' → isDig c = false := by
  rintro c s' rfl
  rcases h with h | ⟨r, h⟩ | ⟨r, h⟩ | ⟨r, h⟩
  · cases h
  all_goals (obtain ⟨rfl, rfl⟩ := List.cons.inj h; rfl)

theorem pNum_digits (neg long : Bool) (n : Nat) (s : List Char) (hs : Stop s) :
    pNum neg (digits n ++ (if long then ['L'] else []) ++ s) =
      some (.ok (.int (if neg then -(n : Int) else n) long), s) := by
  rw [List.append_assoc]
  have hrun := takeWhile_run (p := isDig) (digits n) ((if long then ['L'] else []) ++ s) (digitsF_dig n n) (by
    intro c s' e
    cases long
    · exact hs.not_dig c s' (by simpa using e)
    · simp at e; rw [← e.1]; rfl)
  have hv : valueOf (digits n) = n := valueOf_digitsF n n (Nat.le_refl _)
  unfold pNum
  simp only [hrun.1, hrun.2, hv]
  cases hd : digits n with
  | nil => exact absurd hd (digitsF_ne n n)
  | cons c w =>
    have hz : ¬ (c = '0' ∧ w ≠ []) := by
      rintro ⟨rfl, hw⟩
      exact hw (digits_zero_len n w hd)
    simp only [hz, if_false]
    cases long
    · rcases hs with rfl | ⟨r, rfl⟩ | ⟨r, rfl⟩ | ⟨r, rfl⟩ <;> simp
    · simp

/-! ### strings -/

theorem hexVal_hexChar : ∀ k : Fin 16, hexVal (hexChar k) = some k.val := by decide

theorem hexVal_hex (k : Nat) (h : k < 16) : hexVal (hexChar k) = some k := hexVal_hexChar ⟨k, h⟩

theorem pChar_esc (q : Char) (hq : q = '\'' ∨ q = '"') (b : Byte) (s : List Char) :
    pChar (escByte q b ++ s) = some (b, s) := by
  have hb : b.toNat < 256 := b.isLt
  have back : ∀ n, n = b.toNat → BitVec.ofNat 8 n = b := by rintro n rfl; simp
  unfold escByte
  split
  · rename_i h
    have hc : Char.ofNat b.toNat = '\\' ∨ Char.ofNat b.toNat = '\'' ∨ Char.ofNat b.toNat = '"' := by
      rcases h with h | h
      · rcases hq with rfl | rfl
        · right; left; rw [h]; rfl
        · right; right; rw [h]; rfl
      · left; rw [h]
    have hlt : b.toNat < 128 := by
      rcases h with h | h
      · rcases hq with rfl | rfl
        · have : ('\'' : Char).toNat = 39 := rfl
          omega
        · have : ('"' : Char).toNat = 34 := rfl
          omega
      · omega
    have hn : ∀ c : Char, c ≠ '\\' → c ≠ '\'' → c ≠ '"' → Char.ofNat b.toNat ≠ c := by
      rintro c h1 h2 h3 rfl
      rcases hc with h | h | h <;> contradiction
    simp only [List.cons_append, List.nil_append, pChar, if_true, hn 'x' (by decide) (by decide) (by decide),
      hn 't' (by decide) (by decide) (by decide), hn 'n' (by decide) (by decide) (by decide),
      hn 'r' (by decide) (by decide) (by decide), if_false]
    rw [if_pos hc, ofNat_toNat _ hlt, back _ rfl]
  · rename_i h
    split
    · rename_i h9
      have : b = 9 := by apply BitVec.eq_of_toNat_eq; simpa using h9
      subst this; simp [pChar]
    split
    · rename_i h9
      have : b = 10 := by apply BitVec.eq_of_toNat_eq; simpa using h9
      subst this; simp [pChar]
    split
    · rename_i h9
      have : b = 13 := by apply BitVec.eq_of_toNat_eq; simpa using h9
      subst this; simp [pChar]
    split
    · simp only [List.cons_append, List.nil_append, pChar, if_true, hexVal_hex (b.toNat / 16) (by omega),
        hexVal_hex (b.toNat % 16) (by omega)]
      rw [back _ (by omega)]
    · have h1 : Char.ofNat b.toNat ≠ '\\' := char_ne (by omega) (by
        have : ('\\' : Char).toNat = 92 := rfl
        omega)
      have h2 : ¬ (Char.ofNat b.toNat = '\n' ∨ (Char.ofNat b.toNat).toNat ≥ 128) := by
        rw [ofNat_toNat _ (by omega)]
        rintro (h | h)
        · exact char_ne (c := '\n') (n := b.toNat) (by omega) (by
            have : ('\n' : Char).toNat = 10 := rfl
            omega) h
        · omega
      simp only [List.cons_append, List.nil_append, pChar, h1, if_false, h2]
      rw [ofNat_toNat _ (by omega), back _ rfl]

theorem escByte_head (q : Char) (b : Byte) : ∃ c r, escByte q b = c :: r ∧ (q = '\'' ∨ q = '"' → c ≠ q) := by
  unfold escByte
  split
  · exact ⟨_, _, rfl, by rintro (rfl | rfl) <;> decide⟩
  · rename_i h
    split
    · exact ⟨_, _, rfl, by rintro (rfl | rfl) <;> decide⟩
    split
    · exact ⟨_, _, rfl, by rintro (rfl | rfl) <;> decide⟩
    split
    · exact ⟨_, _, rfl, by rintro (rfl | rfl) <;> decide⟩
    split
    · exact ⟨_, _, rfl, by rintro (rfl | rfl) <;> decide⟩
    · exact ⟨_, _, rfl, fun _ => char_ne (by omega) (by omega)⟩

theorem pStr_esc (q : Char) (hq : q = '\'' ∨ q = '"') : ∀ (b : Bytes) (n : Nat) (s : List Char), b.length < n →
    pStr q n (b.flatMap (escByte q) ++ q :: s) = some (b, s)
  | [], 0, _, h => by simp at h
  | [], n + 1, s, _ => by simp [pStr]
  | x :: b, 0, s, h => by simp at h
  | x :: b, n + 1, s, h => by
    have hn : b.length < n := by simpa using h
    have ih := pStr_esc q hq b n s hn
    have hp := pChar_esc q hq x (b.flatMap (escByte q) ++ q :: s)
    obtain ⟨c, r, he, hc⟩ := escByte_head q x
    rw [List.flatMap_cons, List.append_assoc]
    rw [he] at hp ⊢
    rw [List.cons_append] at hp ⊢
    unfold pStr
    simp only [hc hq, if_false, hp, ih, Option.map_some]

theorem quoteFor_or (b : Bytes) : quoteFor b = '\'' ∨ quoteFor b = '"' := by
  unfold quoteFor; split <;> simp

theorem flatMap_esc_len (q : Char) : ∀ b : Bytes, b.length ≤ (b.flatMap (escByte q)).length
  | [] => by simp
  | x :: b => by
    obtain ⟨c, r, he, _⟩ := escByte_head q x
    have := flatMap_esc_len q b
    rw [List.flatMap_cons, he]
    simp only [List.length_cons, List.length_append]
    omega

theorem pText_run (q : Char) : ∀ (t s : List Char), (∀ c ∈ t, c ≠ q ∧ c ≠ '\\' ∧ c ≠ '\n') →
    pText q (t ++ q :: s) = some (t, s)
  | [], s, _ => by simp [pText]
  | c :: t, s, h => by
    have hc := h c List.mem_cons_self
    have ih := pText_run q t s (fun c hc => h c (List.mem_cons_of_mem _ hc))
    rw [List.cons_append, pText, if_neg hc.1, if_neg (by simp [hc.2]), ih]
    rfl


/-! ### the specification -/

/-- the value of an attribute -/
def attrOf (keys : List String) (vals : List RVal) (k : String) : Option RVal := (keys.zip vals).lookup k

/-- Two Python values are equal as far as one can see from outside: ints and longs by their number, objects by their
class and their public attributes. -/
inductive Same : RVal → RVal → Prop
  | none : Same .none .none
  | bool (b : Bool) : Same (.bool b) (.bool b)
  | int (i : Int) (a b : Bool) : Same (.int i a) (.int i b)
  | str (b : Bytes) : Same (.str b) (.str b)
  | ip (a : IP) : Same (.ip a) (.ip a)
  | net (n : Net) : Same (.net n) (.net n)
  | list (l l' : List RVal) : l.length = l'.length → (∀ (i : Nat) x y, l[i]? = some x → l'[i]? = some y → Same x y) →
      Same (.list l) (.list l')
  | obj (c : String) (ks ks' : List String) (vs vs' : List RVal) :
      (∀ k, isPrivate k = false → ((attrOf ks vs k).isSome ↔ (attrOf ks' vs' k).isSome)) →
      (∀ k x y, isPrivate k = false → attrOf ks vs k = some x → attrOf ks' vs' k = some y → Same x y) →
      Same (.obj c ks vs) (.obj c ks' vs')

/-- an interface name that is a Python name, and not that of a constant -/
def IfName (i : String) : Prop :=
  (∃ c w, i.toList = c :: w ∧ isNameStart c = true) ∧ (∀ c ∈ i.toList, isNameChar c = true) ∧
    i ≠ "None" ∧ i ≠ "True" ∧ i ≠ "False"

/-- attributes have the kinds of values that constructors leave: lists where a constructor stores `x or []`, None where
it stores None, a number for the next header of an IPv4 packet -/
def Typical (d : ClassDef) (ks : List String) (vs : List RVal) : Prop :=
  ∀ k x, isPrivate k = false → attrOf ks vs k = some x →
    (k ∈ d.fixed → x = .none) ∧
    (d.args.lookup k = some .orEmpty → ∃ l, x = .list l) ∧
    (d.args.lookup k = some .orProtocol → ∃ i b, x = .int i b)

mutual
/-- A value made of numbers, booleans, None, byte strings, IP addresses and networks, automatic addresses, lists, and
objects of the classes that have exactly the public attributes that their constructor sets, and any private ones. -/
def Known : RVal → Prop
  | .none => True
  | .bool _ => True
  | .int _ _ => True
  | .str _ => True
  | .text _ => False
  | .list l => KnownAll l
  | .ip _ => True
  | .net _ => True
  | .auto _ i => IfName i
  | .obj c ks vs => (∃ d, classes.find? (fun d => d.name == c) = some d ∧ ks.length = vs.length ∧ ks.Nodup ∧
      (∀ k, isPrivate k = false → (k ∈ ks ↔ k ∈ d.attrNames)) ∧ Typical d ks vs) ∧ KnownPub ks vs
  | .other => False
/-- all values of a list are known -/
def KnownAll : List RVal → Prop
  | [] => True
  | v :: l => Known v ∧ KnownAll l
/-- all values of public attributes are known -/
def KnownPub : List String → List RVal → Prop
  | k :: ks, v :: vs => (isPrivate k = false → Known v) ∧ KnownPub ks vs
  | [], _ => True
  | _ :: _, [] => True
end

mutual
/-- what evaluating the text raises: a UDP message is shown with an argument that its constructor does not take, an
automatic address with a name that is not defined; the first from the left is raised -/
def fault : RVal → Option EvalErr
  | .list l => faultAll l
  | .auto _ _ => some .name
  | .obj c ks vs =>
    match faultPub ks vs with
    | some e => some e
    | none => if c = "UDPMessage" then some .type else none
  | .none => none
  | .bool _ => none
  | .int _ _ => none
  | .str _ => none
  | .text _ => none
  | .ip _ => none
  | .net _ => none
  | .other => none
/-- the first of a list -/
def faultAll : List RVal → Option EvalErr
  | [] => none
  | v :: l =>
    match fault v with
    | some e => some e
    | none => faultAll l
/-- the first of the public attributes -/
def faultPub : List String → List RVal → Option EvalErr
  | k :: ks, v :: vs =>
    if isPrivate k then faultPub ks vs
    else match fault v with
      | some e => some e
      | none => faultPub ks vs
  | [], _ => none
  | _ :: _, [] => none
end

/-- the result expected for a value -/
def Outcome (v : RVal) (r : Except EvalErr RVal) : Prop :=
  match fault v with
  | some e => r = .error e
  | none => ∃ v', r = .ok v' ∧ Same v v'

/-! ### reading what is written -/

theorem skip_cons {c : Char} (h : c ≠ ' ') (s : List Char) : skip (c :: s) = c :: s := by
  unfold skip
  rw [List.dropWhile_cons_of_neg (by simpa using h)]

theorem skip_blank (s : List Char) : skip (' ' :: s) = skip s := rfl

theorem stop_close {close : Char} (h : close = ')' ∨ close = ']') (s : List Char) : Stop (close :: s) := by
  rcases h with rfl | rfl
  · exact .inr (.inr (.inl ⟨s, rfl⟩))
  · exact .inr (.inr (.inr ⟨s, rfl⟩))

/-- the argument or item at the start of a text -/
def itemAt (L : IpLib) (n : Nat) (s : List Char) : Option (Arg × List Char) :=
  match pKey s with
  | some (k, r) => (pExpr L n r).map (fun x => ((some k, x.1), x.2))
  | none => (pExpr L n s).map (fun x => ((none, x.1), x.2))

/-- a text that begins like an argument or item -/
def Begins (t : List Char) : Prop := ∃ c r, t = c :: r ∧ c ≠ ' ' ∧ c ≠ ')' ∧ c ≠ ']' ∧ c ≠ ','

def Reads (L : IpLib) (t : List Char) (a : Arg) : Prop :=
  Begins t ∧ ∀ n s, t.length < n → Stop s → itemAt L n (t ++ s) = some (a, s)

theorem pItems_commas (L : IpLib) {close : Char} (hclose : close = ')' ∨ close = ']') :
    ∀ (ps : List (List Char × Arg)) (n : Nat) (s : List Char), (∀ p ∈ ps, Reads L p.1 p.2) →
      (commas (ps.map (·.1))).length + 1 < n →
      pItems L n close (commas (ps.map (·.1)) ++ close :: s) = some (ps.map (·.2), s)
  | ps, 0, s, _, hn => by omega
  | [], n + 1, s, _, _ => by
    have hne : close ≠ ' ' := by rcases hclose with rfl | rfl <;> decide
    simp only [List.map_nil, commas, List.nil_append, pItems, skip_cons hne, if_true]
  | p :: ps, n + 1, s, hr, hn => by
    obtain ⟨⟨c, r, hc, h1, h2, h3, _⟩, hread⟩ := hr p List.mem_cons_self
    have hcc : c ≠ close := by rcases hclose with rfl | rfl <;> assumption
    have hne : close ≠ ' ' := by rcases hclose with rfl | rfl <;> decide
    have hcomma : close ≠ ',' := by rcases hclose with rfl | rfl <;> decide
    have step : ∀ (t : List Char), Stop t → p.1.length < n →
        pItems L (n + 1) close (p.1 ++ t) = (match skip t with
          | [] => none
          | d :: r' =>
            if d = ',' then (pItems L n close r').map (fun x => (p.2 :: x.1, x.2))
            else if d = close then some ([p.2], r')
            else none) := by
      intro t ht hl
      have hi := hread n t hl ht
      rw [hc, List.cons_append] at hi ⊢
      rw [pItems, skip_cons h1]
      simp only [hcc, if_false]
      change (match itemAt L n (c :: (r ++ t)) with
        | none => none
        | some (i, r) => _) = _
      rw [hi]
      rfl
    cases ps with
    | nil =>
      simp only [List.map_cons, List.map_nil, commas] at hn ⊢
      rw [step _ (stop_close hclose s) (by omega), skip_cons hne]
      simp [hcomma]
    | cons p' ps =>
      simp only [List.map_cons, commas, List.length_append, List.length_cons] at hn ⊢
      rw [List.append_assoc, List.cons_append, List.cons_append]
      rw [step _ (.inr (.inl ⟨_, rfl⟩)) (by omega), skip_cons (by decide)]
      simp only [if_true]
      have ih := pItems_commas L hclose (p' :: ps) n s (fun q hq => hr q (List.mem_cons_of_mem _ hq)) (by
        simp only [List.map_cons]; omega)
      simp only [List.map_cons] at ih
      obtain ⟨n', rfl⟩ : ∃ n', n = n' + 1 := ⟨n - 1, by omega⟩
      have hb : pItems L (n' + 1) close (' ' :: (commas (p'.1 :: ps.map (·.1)) ++ close :: s)) =
          pItems L (n' + 1) close (commas (p'.1 :: ps.map (·.1)) ++ close :: s) := by
        rw [pItems, pItems, skip_blank]
      rw [hb, ih]
      rfl

/-- a name -/
def Word (w : List Char) : Prop := (∃ c r, w = c :: r ∧ isNameStart c = true) ∧ ∀ c ∈ w, isNameChar c = true

theorem nameStart_facts {c : Char} (h : isNameStart c = true) :
    c ≠ ' ' ∧ c ≠ ')' ∧ c ≠ ']' ∧ c ≠ ',' ∧ c ≠ '\'' ∧ c ≠ '"' ∧ c ≠ '[' ∧ c ≠ '-' ∧ isDig c = false := by
  refine ⟨?_, ?_, ?_, ?_, ?_, ?_, ?_, ?_, ?_⟩
  all_goals first
    | (rintro rfl; revert h; decide)
    | skip
  cases hd : isDig c with
  | false => rfl
  | true =>
    exfalso
    simp [isDig, isNameStart] at hd h
    rcases h with (h | h) | h
    · omega
    · omega
    · subst h; revert hd; decide

theorem Word.begins {w : List Char} (h : Word w) (s : List Char) : Begins (w ++ s) := by
  obtain ⟨⟨c, r, rfl, hc⟩, _⟩ := h
  have := nameStart_facts hc
  exact ⟨c, r ++ s, rfl, this.1, this.2.1, this.2.2.1, this.2.2.2.1⟩

theorem pKey_word {w : List Char} (hw : Word w) (s : List Char) (hs : ∀ c s', s = c :: s' → isNameChar c = false)
    (he : ∀ s', s ≠ '=' :: s') : pKey (w ++ s) = none := by
  have hrun := takeWhile_run (p := isNameChar) w s hw.2 hs
  obtain ⟨⟨c, r, rfl, hc⟩, _⟩ := hw
  rw [List.cons_append] at hrun ⊢
  unfold pKey
  simp only [hc, if_true, hrun.2]

theorem pKey_key {w : List Char} (hw : Word w) (s : List Char) : pKey (w ++ '=' :: s) = some (String.ofList w, s) := by
  have hrun := takeWhile_run (p := isNameChar) w ('=' :: s) hw.2 (by
    rintro c s' e; obtain ⟨rfl, _⟩ := List.cons.inj e; rfl)
  obtain ⟨⟨c, r, rfl, hc⟩, _⟩ := hw
  rw [List.cons_append] at hrun ⊢
  unfold pKey
  simp only [hc, if_true, hrun.1, hrun.2]

theorem pKey_other {c : Char} (h : isNameStart c = false) (s : List Char) : pKey (c :: s) = none := by
  unfold pKey; simp [h]

theorem pExpr_name (L : IpLib) {w : List Char} (hw : Word w) (n : Nat) (s : List Char) (hs : Stop s) :
    pExpr L (n + 1) (w ++ s) = some (nameVal w, s) := by
  have hrun := takeWhile_run (p := isNameChar) w s hw.2 hs.not_name
  obtain ⟨⟨c, r, rfl, hc⟩, _⟩ := hw
  have hf := nameStart_facts hc
  rw [List.cons_append] at hrun ⊢
  rw [pExpr, skip_cons hf.1]
  simp only [hf.2.2.2.2.1, hf.2.2.2.2.2.1, hf.2.2.2.2.2.2.1, hf.2.2.2.2.2.2.2.1, hf.2.2.2.2.2.2.2.2, hc, or_self,
    if_false, if_true, hrun.1, hrun.2, Bool.false_eq_true]
  rcases hs with rfl | ⟨r, rfl⟩ | ⟨r, rfl⟩ | ⟨r, rfl⟩ <;> simp

theorem pExpr_call (L : IpLib) {w : List Char} (hw : Word w) (n : Nat) (s : List Char) :
    pExpr L (n + 1) (w ++ '(' :: s) = (pItems L n ')' s).map (fun x => (call L (String.ofList w) x.1, x.2)) := by
  have hrun := takeWhile_run (p := isNameChar) w ('(' :: s) hw.2 (by
    rintro c s' e; obtain ⟨rfl, _⟩ := List.cons.inj e; rfl)
  obtain ⟨⟨c, r, rfl, hc⟩, _⟩ := hw
  have hf := nameStart_facts hc
  rw [List.cons_append] at hrun ⊢
  rw [pExpr, skip_cons hf.1]
  simp only [hf.2.2.2.2.1, hf.2.2.2.2.2.1, hf.2.2.2.2.2.2.1, hf.2.2.2.2.2.2.2.1, hf.2.2.2.2.2.2.2.2, hc, or_self,
    if_false, if_true, hrun.1, hrun.2, Bool.false_eq_true]
  simp

theorem pExpr_text (L : IpLib) (n : Nat) (t s : List Char) (ht : ∀ c ∈ t, c ≠ '\'' ∧ c ≠ '\\' ∧ c ≠ '\n') :
    pExpr L (n + 1) ('u' :: '\'' :: t ++ '\'' :: s) = some (.ok (.text t), s) := by
  have hp := pText_run '\'' t s ht
  rw [List.cons_append, List.cons_append, pExpr, skip_cons (by decide)]
  have h1 : ('u' :: '\'' :: (t ++ '\'' :: s)).takeWhile isNameChar = ['u'] := by
    rw [List.takeWhile_cons_of_pos (by decide), List.takeWhile_cons_of_neg (by decide)]
  have h2 : ('u' :: '\'' :: (t ++ '\'' :: s)).dropWhile isNameChar = '\'' :: (t ++ '\'' :: s) := by
    rw [List.dropWhile_cons_of_pos (by decide), List.dropWhile_cons_of_neg (by decide)]
  have h3 : isDig 'u' = false := by decide
  have h4 : isNameStart 'u' = true := by decide
  simp only [h1, h2, h3, h4]
  simp [hp]

/-! ### the classes -/

theorem word_of (w : List Char) (h : (match w with | [] => false | c :: _ => isNameStart c) = true)
    (h' : w.all isNameChar = true) : Word w := by
  refine ⟨?_, by simpa using h'⟩
  cases w with
  | nil => simp at h
  | cons c r => exact ⟨c, r, rfl, h⟩

theorem lookup_mem {β : Type} : ∀ (l : List (String × β)) (k : String) (v : β), l.lookup k = some v → (k, v) ∈ l
  | [], _, _, h => by simp at h
  | (k', v') :: l, k, v, h => by
    simp only [List.lookup] at h
    cases hk : k == k' with
    | true =>
      rw [hk] at h
      simp only [Option.some.injEq] at h
      have := eq_of_beq hk
      subst this h
      exact List.mem_cons_self
    | false => rw [hk] at h; exact List.mem_cons_of_mem _ (lookup_mem l k v h)

/-- checked class by class -/
def classOk (d : ClassDef) : Bool :=
  (match d.name.toList with | [] => false | c :: _ => isNameStart c) && d.name.toList.all isNameChar &&
  d.attrNames.all (fun k => (match k.toList with | [] => false | c :: _ => isNameStart c) && k.toList.all isNameChar) &&
  !["IPv4Address", "IPv6Address", "IPv4Network", "IPv6Network", "AutoIPv4Address", "AutoIPv6Address"].contains d.name &&
  !d.attrNames.contains "protocol" &&
  (if d.name == "UDPMessage" then d.attrNames.contains "next_header" && !(d.args.map (·.1)).contains "next_header"
    else d.attrNames.all (fun k => (d.args.map (·.1)).contains k)) &&
  d.args.all (fun a => match a.2 with
    | .ignored _ => !((d.args.filter (fun a => match a.2 with | .ignored _ => false | _ => true)).map (·.1)).contains a.1
    | _ => true)

theorem classes_ok : classes.all classOk = true := by decide +kernel

structure ClassFacts (d : ClassDef) : Prop where
  name : Word d.name.toList
  attrs : ∀ k ∈ d.attrNames, Word k.toList
  notAddr : d.name ≠ "IPv4Address" ∧ d.name ≠ "IPv6Address" ∧ d.name ≠ "IPv4Network" ∧ d.name ≠ "IPv6Network"
  noProtocol : "protocol" ∉ d.attrNames
  udp : d.name = "UDPMessage" → "next_header" ∈ d.attrNames ∧ "next_header" ∉ d.args.map (·.1)
  params : d.name ≠ "UDPMessage" → ∀ k ∈ d.attrNames, k ∈ d.args.map (·.1)
  ignored : ∀ k w, d.args.lookup k = some (.ignored w) →
    k ∉ (d.args.filter (fun a => match a.2 with | .ignored _ => false | _ => true)).map (·.1)

theorem class_facts {d : ClassDef} (h : d ∈ classes) : ClassFacts d := by
  have := List.all_eq_true.mp classes_ok d h
  unfold classOk at this
  simp only [Bool.and_eq_true, List.all_eq_true] at this
  obtain ⟨⟨⟨⟨⟨⟨h1, h2⟩, h3⟩, h4⟩, h5⟩, h6⟩, h7⟩ := this
  refine ⟨word_of _ h1 (by simpa using h2), fun k hk => word_of _ (h3 k hk).1 (by simpa using (h3 k hk).2), ?_, ?_, ?_, ?_, ?_⟩
  · simp at h4
    exact ⟨h4.1, h4.2.1, h4.2.2.1, h4.2.2.2.1⟩
  · simpa using h5
  · intro e
    rw [e] at h6
    simp only [beq_self_eq_true, if_true, Bool.and_eq_true] at h6
    exact ⟨by simpa using h6.1, by simpa using h6.2⟩
  · intro e
    have : (d.name == "UDPMessage") = false := by simpa using e
    rw [this] at h6
    intro k hk
    simp only [Bool.false_eq_true, if_false] at h6
    simpa using List.all_eq_true.mp h6 k hk
  · intro k w hl
    have := h7 _ (lookup_mem _ _ _ hl)
    simp only at this
    intro hk
    rw [List.contains_iff_mem.mpr hk] at this
    cases this

/-! ### every value -/

def Good (L : IpLib) (v : RVal) : Prop :=
  ∃ r, (∀ n s, (reprOf L v).length < n → Stop s → pExpr L n (reprOf L v ++ s) = some (r, s)) ∧ Outcome v r

/-- the text of a value is not taken for an argument with a key -/
def Keyless (L : IpLib) (v : RVal) : Prop :=
  Begins (reprOf L v) ∧ ∀ s, Stop s → pKey (reprOf L v ++ s) = none

theorem Stop.not_eq {s : List Char} (h : Stop s) : ∀ s', s ≠ '=' :: s' := by
  rintro s' rfl
  rcases h with h | ⟨r, h⟩ | ⟨r, h⟩ | ⟨r, h⟩ <;> simp at h

theorem keyless_word (L : IpLib) (v : RVal) (w : List Char) (hw : Word w) (h : reprOf L v = w) : Keyless L v := by
  rw [Keyless, h]
  exact ⟨by simpa using hw.begins [], fun s hs => pKey_word hw s hs.not_name hs.not_eq⟩

theorem keyless_call (L : IpLib) (v : RVal) (w t : List Char) (hw : Word w) (h : reprOf L v = w ++ '(' :: t) :
    Keyless L v := by
  rw [Keyless, h]
  refine ⟨hw.begins _, fun s hs => ?_⟩
  rw [List.append_assoc]
  exact pKey_word hw _ (by rintro c s' e; obtain ⟨rfl, _⟩ := List.cons.inj e; rfl) (by rintro s' e; simp at e)

theorem keyless_other (L : IpLib) (v : RVal) (c : Char) (t : List Char) (h : reprOf L v = c :: t)
    (hc : isNameStart c = false ∧ c ≠ ' ' ∧ c ≠ ')' ∧ c ≠ ']' ∧ c ≠ ',') : Keyless L v := by
  rw [Keyless, h]
  exact ⟨⟨c, t, rfl, hc.2⟩, fun s _ => pKey_other hc.1 _⟩

theorem word_addrClass (v : Ver) : Word (addrClass v).toList := by
  cases v <;> exact word_of _ (by decide) (by decide)
theorem word_netClass (v : Ver) : Word (netClass v).toList := by
  cases v <;> exact word_of _ (by decide) (by decide)
theorem word_autoClass (v : Ver) : Word (autoClass v).toList := by
  cases v <;> exact word_of _ (by decide) (by decide)

theorem dig_facts {c : Char} (h : isDig c = true) :
    isNameStart c = false ∧ c ≠ ' ' ∧ c ≠ ')' ∧ c ≠ ']' ∧ c ≠ ',' ∧ c ≠ '\'' ∧ c ≠ '"' ∧ c ≠ '[' ∧ c ≠ '-' := by
  refine ⟨?_, ?_, ?_, ?_, ?_, ?_, ?_, ?_, ?_⟩
  all_goals first
    | (rintro rfl; revert h; decide)
    | skip
  cases hd : isNameStart c with
  | false => rfl
  | true => rw [(nameStart_facts hd).2.2.2.2.2.2.2.2] at h; cases h

theorem find_class {c : String} {d : ClassDef} (h : classes.find? (fun d => d.name == c) = some d) :
    d ∈ classes ∧ d.name = c := by
  generalize classes = C at h ⊢
  have h2 := List.find?_some h
  exact ⟨List.mem_of_find?_eq_some h, eq_of_beq h2⟩

theorem word_None : Word "None".toList := word_of _ (by decide +kernel) (by decide +kernel)
theorem word_True : Word "True".toList := word_of _ (by decide +kernel) (by decide +kernel)
theorem word_False : Word "False".toList := word_of _ (by decide +kernel) (by decide +kernel)

theorem keyless (L : IpLib) : ∀ v, Known v → Keyless L v
  | .none, _ => keyless_word L _ _ word_None (by rw [reprOf, reprName])
  | .bool true, _ => keyless_word L _ _ word_True (by rw [reprOf, reprBool, if_pos rfl, reprName])
  | .bool false, _ => keyless_word L _ _ word_False (by rw [reprOf, reprBool, if_neg (by decide), reprName])
  | .int i long, _ => by
    by_cases hi : i < 0
    · exact keyless_other L _ '-' (digits i.natAbs ++ (if long then ['L'] else [])) (by simp [reprOf, reprInt, hi]) (by decide)
    · cases hd : digits i.natAbs with
      | nil => exact absurd hd (digitsF_ne _ _)
      | cons c w =>
        have hc : isDig c = true := digitsF_dig i.natAbs i.natAbs c (by
          have : c ∈ digits i.natAbs := by rw [hd]; exact List.mem_cons_self
          exact this)
        have := dig_facts hc
        exact keyless_other L _ c (w ++ (if long then ['L'] else [])) (by simp [reprOf, reprInt, hi, hd])
          ⟨this.1, this.2.1, this.2.2.1, this.2.2.2.1, this.2.2.2.2.1⟩
  | .str b, _ => by
    rcases quoteFor_or b with h | h
    · exact keyless_other L _ '\'' _ (by simp only [reprOf, reprStr, h]; rfl) (by decide)
    · exact keyless_other L _ '"' _ (by simp only [reprOf, reprStr, h]; rfl) (by decide)
  | .text _, h => by cases h
  | .list l, _ => keyless_other L _ '[' _ (by simp only [reprOf, reprItems]; rfl) (by decide)
  | .ip a, _ => keyless_call L _ _ _ (word_addrClass a.ver) (by simp only [reprOf, reprCall, List.append_assoc, List.cons_append]; rfl)
  | .net a, _ => keyless_call L _ _ _ (word_netClass a.ver) (by simp only [reprOf, reprCall, List.append_assoc, List.cons_append]; rfl)
  | .auto v i, _ => keyless_call L _ _ _ (word_autoClass v) (by simp only [reprOf, reprCall, List.append_assoc, List.cons_append]; rfl)
  | .obj c ks vs, h => by
    obtain ⟨⟨d, hd, _⟩, _⟩ := h
    obtain ⟨hm, rfl⟩ := find_class hd
    exact keyless_call L _ _ _ (class_facts hm).name (by simp only [reprOf, represent, List.append_assoc, List.cons_append]; rfl)
  | .other, h => by cases h

theorem reads_value (L : IpLib) {v : RVal} (hk : Keyless L v) {r : Except EvalErr RVal}
    (h : ∀ n s, (reprOf L v).length < n → Stop s → pExpr L n (reprOf L v ++ s) = some (r, s)) :
    Reads L (reprOf L v) (none, r) := by
  refine ⟨hk.1, fun n s hn hs => ?_⟩
  rw [itemAt, hk.2 s hs, h n s hn hs]
  rfl

theorem reads_key (L : IpLib) {v : RVal} (k : String) (hw : Word k.toList) {r : Except EvalErr RVal}
    (h : ∀ n s, (reprOf L v).length < n → Stop s → pExpr L n (reprOf L v ++ s) = some (r, s)) :
    Reads L (k.toList ++ '=' :: reprOf L v) (some k, r) := by
  refine ⟨hw.begins _, fun n s hn hs => ?_⟩
  rw [itemAt, List.append_assoc, List.cons_append, pKey_key hw]
  simp only [List.length_append, List.length_cons] at hn
  simp only [h n s (by omega) hs, Option.map_some, String.ofList_toList]

/-- two lists of values are the same, one by one -/
def AllSame (l l' : List RVal) : Prop :=
  l.length = l'.length ∧ ∀ (i : Nat) x y, l[i]? = some x → l'[i]? = some y → Same x y

theorem allSame_cons {x y : RVal} {l l' : List RVal} (h : Same x y) (hl : AllSame l l') : AllSame (x :: l) (y :: l') := by
  refine ⟨by simp [hl.1], fun i a b ha hb => ?_⟩
  cases i with
  | zero => simp at ha hb; subst ha hb; exact h
  | succ i => exact hl.2 i a b (by simpa using ha) (by simpa using hb)

theorem list_items (L : IpLib) : ∀ (l : List RVal), KnownAll l → (∀ x ∈ l, Good L x) →
    ∃ ps : List (List Char × Arg), ps.map (·.1) = reprAll L l ∧ (∀ p ∈ ps, Reads L p.1 p.2) ∧ (∀ p ∈ ps, p.2.1 = none) ∧
      (match faultAll l with
        | some e => allOk (ps.map (·.2)) = .error e
        | none => ∃ vs, allOk (ps.map (·.2)) = .ok vs ∧ AllSame l (vs.map (·.2)))
  | [], _, _ => ⟨[], rfl, by simp, by simp, [], rfl, rfl, by simp⟩
  | x :: l, hk, hg => by
    obtain ⟨ps, h1, h2, h3, h4⟩ := list_items L l hk.2 (fun y hy => hg y (List.mem_cons_of_mem _ hy))
    obtain ⟨r, hr, ho⟩ := hg x List.mem_cons_self
    refine ⟨(reprOf L x, (none, r)) :: ps, by simp [reprAll, h1], ?_, ?_, ?_⟩
    · intro p hp
      rcases List.mem_cons.mp hp with rfl | hp
      · exact reads_value L (keyless L x hk.1) hr
      · exact h2 p hp
    · intro p hp
      rcases List.mem_cons.mp hp with rfl | hp
      · rfl
      · exact h3 p hp
    · unfold Outcome at ho
      simp only [faultAll]
      cases hf : fault x with
      | some e =>
        rw [hf] at ho
        simp only [List.map_cons, ho, allOk]
      | none =>
        rw [hf] at ho
        obtain ⟨v', rfl, hs⟩ := ho
        simp only
        cases hfa : faultAll l with
        | some e =>
          rw [hfa] at h4
          simp only [List.map_cons, allOk, h4]
        | none =>
          rw [hfa] at h4
          obtain ⟨vs, hv, hsame⟩ := h4
          exact ⟨(none, v') :: vs, by simp only [List.map_cons, allOk, hv], allSame_cons hs hsame⟩

theorem lookup_filter (f : String → Bool) : ∀ (l : List (String × RVal)) (k : String), f k = true →
    (l.filter (fun p => f p.1)).lookup k = l.lookup k
  | [], _, _ => rfl
  | (k', v) :: l, k, h => by
    by_cases hk : k = k'
    · subst hk
      simp [h]
    · have : (k == k') = false := by simpa using hk
      cases hf : f k' with
      | true => simp [hf, List.lookup, this, lookup_filter f l k h]
      | false => simp [hf, List.lookup, this, lookup_filter f l k h]

theorem obj_items (L : IpLib) : ∀ (ks : List String) (vs : List RVal), ks.length = vs.length →
    (∀ k ∈ ks, isPrivate k = false → Word k.toList) → (∀ p ∈ ks.zip vs, isPrivate p.1 = false → Good L p.2) →
    ∃ ps : List (List Char × Arg),
      ps.map (·.1) = ((ks.zip (reprAll L vs)).filter (fun p => !isPrivate p.1 && !([] : List String).contains p.1)).map
        (fun p => p.1.toList ++ '=' :: p.2) ∧
      (∀ p ∈ ps, Reads L p.1 p.2) ∧
      (match faultPub ks vs with
        | some e => allOk (ps.map (·.2)) = .error e
        | none => ∃ kw : List (String × RVal), allOk (ps.map (·.2)) = .ok (kw.map (fun p => (some p.1, p.2))) ∧
            kw.map (·.1) = ks.filter (fun k => !isPrivate k) ∧
            ∀ k x, isPrivate k = false → attrOf ks vs k = some x → ∃ y, kw.lookup k = some y ∧ Same x y)
  | [], vs, _, _, _ => ⟨[], rfl, by simp, by simp only [faultPub]; exact ⟨[], rfl, rfl, by simp [attrOf]⟩⟩
  | k :: ks, [], h, _, _ => by simp at h
  | k :: ks, v :: vs, hl, hw, hg => by
    obtain ⟨ps, h1, h2, h3⟩ := obj_items L ks vs (by simpa using hl) (fun k hk => hw k (List.mem_cons_of_mem _ hk))
      (fun p hp => hg p (by simp only [List.zip_cons_cons]; exact List.mem_cons_of_mem _ hp))
    cases hpriv : isPrivate k with
    | true =>
      refine ⟨ps, ?_, h2, ?_⟩
      · rw [h1]; simp [reprAll, hpriv]
      · simp only [faultPub, hpriv, if_true]
        cases hf : faultPub ks vs with
        | some e => rw [hf] at h3; exact h3
        | none =>
          rw [hf] at h3
          obtain ⟨kw, ha, hb, hc⟩ := h3
          refine ⟨kw, ha, by simp [hb, hpriv], fun k' x hk' hx => hc k' x hk' ?_⟩
          have : (k' == k) = false := by
            cases h : k' == k with
            | false => rfl
            | true => rw [eq_of_beq h, hpriv] at hk'; cases hk'
          simpa [attrOf, List.lookup, this] using hx
    | false =>
      obtain ⟨r, hr, ho⟩ := hg (k, v) (by simp) hpriv
      refine ⟨(k.toList ++ '=' :: reprOf L v, (some k, r)) :: ps, ?_, ?_, ?_⟩
      · simp [reprAll, hpriv, h1]
      · intro p hp
        rcases List.mem_cons.mp hp with rfl | hp
        · exact reads_key L k (hw k List.mem_cons_self hpriv) hr
        · exact h2 p hp
      · unfold Outcome at ho
        simp only [faultPub, hpriv, Bool.false_eq_true, if_false]
        cases hf : fault v with
        | some e =>
          rw [hf] at ho
          simp only [List.map_cons, ho, allOk]
        | none =>
          rw [hf] at ho
          obtain ⟨v', rfl, hs⟩ := ho
          simp only
          cases hfa : faultPub ks vs with
          | some e =>
            rw [hfa] at h3
            simp only [List.map_cons, allOk, h3]
          | none =>
            rw [hfa] at h3
            obtain ⟨kw, ha, hb, hc⟩ := h3
            refine ⟨(k, v') :: kw, by simp only [List.map_cons, allOk, ha], by simp [hb, hpriv], fun k' x hk' hx => ?_⟩
            simp only [attrOf, List.zip_cons_cons, List.lookup] at hx ⊢
            cases h : k' == k with
            | true =>
              rw [h] at hx
              simp only [Option.some.injEq] at hx ⊢
              subst hx
              exact ⟨v', rfl, hs⟩
            | false =>
              rw [h] at hx
              exact hc k' x hk' hx

theorem attr_map (f : String → RVal) : ∀ (l : List String) (k : String),
    attrOf l (l.map f) k = if k ∈ l then some (f k) else none
  | [], _ => by simp [attrOf]
  | k' :: l, k => by
    have ih := attr_map f l k
    simp only [attrOf, List.map_cons, List.zip_cons_cons, List.lookup] at ih ⊢
    cases h : k == k' with
    | true => have := eq_of_beq h; subst this; simp
    | false =>
      have hne : k ≠ k' := by simpa using h
      simp only [ih, List.mem_cons, hne, false_or]

theorem attr_isSome : ∀ (ks : List String) (vs : List RVal) (k : String), ks.length = vs.length →
    ((attrOf ks vs k).isSome ↔ k ∈ ks)
  | [], _, k, _ => by simp [attrOf]
  | k' :: ks, [], k, h => by simp at h
  | k' :: ks, v :: vs, k, h => by
    have ih := attr_isSome ks vs k (by simpa using h)
    simp only [attrOf, List.zip_cons_cons, List.lookup] at ih ⊢
    cases hk : k == k' with
    | true => have := eq_of_beq hk; subst this; simp
    | false =>
      have hne : k ≠ k' := by simpa using hk
      simp only [ih, List.mem_cons, hne, false_or]

theorem same_list_empty {x : RVal} {l : List RVal} (h : Same (.list l) x) (ht : x.truth = false) : x = .list [] := by
  cases h with
  | list _ l' _ _ =>
    cases l' with
    | nil => rfl
    | cons a l' => simp [RVal.truth] at ht

/-- calling the class of an object with its public attributes -/
theorem construct_same {d : ClassDef} (hf : ClassFacts d) {ks : List String} {vs : List RVal}
    (hlen : ks.length = vs.length) (hkeys : ∀ k, isPrivate k = false → (k ∈ ks ↔ k ∈ d.attrNames))
    (htyp : Typical d ks vs) {kw : List (String × RVal)} (hkw : kw.map (·.1) = ks.filter (fun k => !isPrivate k))
    (hsame : ∀ k x, isPrivate k = false → attrOf ks vs k = some x → ∃ y, kw.lookup k = some y ∧ Same x y) :
    (d.name = "UDPMessage" → construct d kw = .error .type) ∧
    (d.name ≠ "UDPMessage" → ∃ v', construct d kw = .ok v' ∧ Same (.obj d.name ks vs) v') := by
  have hmem : ∀ p ∈ kw, p.1 ∈ d.attrNames := by
    intro p hp
    have : p.1 ∈ kw.map (·.1) := List.mem_map_of_mem hp
    rw [hkw] at this
    obtain ⟨h1, h2⟩ := List.mem_filter.mp this
    exact (hkeys p.1 (by simpa using h2)).mp h1
  constructor
  · intro hu
    obtain ⟨h1, h2⟩ := hf.udp hu
    have hpriv : isPrivate "next_header" = false := by decide
    have hin : "next_header" ∈ kw.map (·.1) := by
      rw [hkw]
      exact List.mem_filter.mpr ⟨(hkeys _ hpriv).mpr h1, by simp [hpriv]⟩
    obtain ⟨p, hp, hpe⟩ := List.mem_map.mp hin
    have hnot : kw.all (fun p => (d.args.map (·.1)).contains p.1) = false := by
      rw [List.all_eq_false]
      exact ⟨p, hp, by rw [hpe]; simpa using h2⟩
    unfold construct
    rw [hnot]
    rfl
  · intro hu
    have hall : kw.all (fun p => (d.args.map (·.1)).contains p.1) = true := by
      rw [List.all_eq_true]
      intro p hp
      simpa using hf.params hu p.1 (hmem p hp)
    have hnp : kw.lookup "protocol" = none := by
      rw [List.lookup_eq_none_iff]
      intro p hp
      cases h : ("protocol" == p.1) with
      | false => simpa using h
      | true =>
        have := eq_of_beq h
        exact absurd (hmem p hp) (this ▸ hf.noProtocol)
    have hprot : given kw "protocol" (.int 0 false) = .int 0 false := by simp [given, hnp]
    have hc : conflict d kw = false := by
      unfold conflict
      rw [hprot]
      split <;> rfl
    refine ⟨.obj d.name d.attrNames (d.attrNames.map (d.attr kw)), ?_, ?_⟩
    · unfold construct
      rw [hall, hc]
      rfl
    · refine .obj _ _ _ _ _ (fun k hk => ?_) (fun k x y hk hx hy => ?_)
      · rw [attr_isSome _ _ _ hlen, attr_isSome _ _ _ (by simp)]
        exact hkeys k hk
      · obtain ⟨z, hz, hs⟩ := hsame k x hk hx
        rw [attr_map] at hy
        split at hy
        · rename_i hka
          simp only [Option.some.injEq] at hy
          subst hy
          have hg : ∀ v, given kw k v = z := fun v => by simp [given, hz]
          obtain ⟨t1, t2, t3⟩ := htyp k x hk hx
          unfold ClassDef.attr
          by_cases hfix : k ∈ d.fixed
          · rw [if_pos (by simpa using hfix), t1 hfix]
            exact .none
          · rw [if_neg (by simpa using hfix)]
            split
            · rw [hg]; exact hs
            · rename_i hl
              obtain ⟨l, rfl⟩ := t2 hl
              rw [hg]
              cases ht : z.truth with
              | true => simpa [ht] using hs
              | false =>
                have := same_list_empty hs ht
                subst this
                simpa [ht] using hs
            · rename_i hl
              obtain ⟨i, b, rfl⟩ := t3 hl
              rw [hg, hprot]
              cases hs with
              | int _ _ b' =>
                by_cases hi : i = 0
                · subst hi
                  simpa [RVal.truth] using Same.int 0 b false
                · have : (RVal.int i b').truth = true := by simpa [RVal.truth] using hi
                  simpa [this] using Same.int i b b'
            · rename_i w hl
              -- an ignored parameter is no attribute
              exfalso
              have : k ∈ (d.args.filter (fun a => match a.2 with | .ignored _ => false | _ => true)).map (·.1) := by
                rcases List.mem_append.mp hka with h | h
                · exact h
                · exact absurd h hfix
              exact hf.ignored k w hl this
            · rename_i hl
              exfalso
              have := hf.params hu k hka
              obtain ⟨p, hp, hpe⟩ := List.mem_map.mp this
              rw [List.lookup_eq_none_iff] at hl
              have := hl p hp
              simp [hpe] at this
        · cases hy

theorem reads_text (L : IpLib) (t : List Char) (ht : ∀ c ∈ t, c ≠ '\'' ∧ c ≠ '\\' ∧ c ≠ '\n') :
    Reads L (reprText t) (none, .ok (.text t)) := by
  refine ⟨⟨'u', '\'' :: t ++ ['\''], rfl, by decide, by decide, by decide, by decide⟩, fun n s hn _ => ?_⟩
  obtain ⟨n', rfl⟩ : ∃ n', n = n' + 1 := ⟨n - 1, by omega⟩
  have he : reprText t ++ s = 'u' :: '\'' :: t ++ '\'' :: s := by simp [reprText]
  rw [he, itemAt]
  have hk : pKey ('u' :: '\'' :: t ++ '\'' :: s) = none :=
    pKey_word (w := ['u']) ⟨⟨'u', [], rfl, by decide⟩, by decide⟩ ('\'' :: t ++ '\'' :: s)
      (by rintro c s' e; obtain ⟨rfl, _⟩ := List.cons.inj e; decide) (by rintro s' e; simp at e)
  rw [hk, pExpr_text L n' t s ht]
  rfl

theorem call_one (L : IpLib) {f : String} {t : List Char} {a : Arg} (hw : Word f.toList) (h : Reads L t a) (n : Nat)
    (s : List Char) (hn : (reprCall f t).length < n) : pExpr L n (reprCall f t ++ s) = some (call L f [a], s) := by
  obtain ⟨n', rfl⟩ : ∃ n', n = n' + 1 := ⟨n - 1, by omega⟩
  have he : reprCall f t ++ s = f.toList ++ '(' :: (t ++ ')' :: s) := by simp [reprCall]
  have hi := pItems_commas L (.inl rfl) [(t, a)] n' s (by simpa using h) (by
    simp only [reprCall, List.length_append, List.length_cons, List.length_nil] at hn
    obtain ⟨⟨c, r, hc, _⟩, _⟩ := hw
    rw [hc] at hn
    simp only [List.map_cons, List.map_nil, commas]
    simp only [List.length_cons] at hn
    omega)
  simp only [List.map_cons, List.map_nil, commas] at hi
  rw [he, pExpr_call L hw, hi, Option.map_some, String.ofList_toList]

theorem addr_char {c : Char} (h : c ∈ "0123456789abcdef.:/".toList) : c ≠ '\'' ∧ c ≠ '\\' ∧ c ≠ '\n' := by
  have : ∀ c ∈ "0123456789abcdef.:/".toList, c ≠ '\'' ∧ c ≠ '\\' ∧ c ≠ '\n' := by decide +kernel
  exact this c h

theorem call_addr (L : IpLib) (a : IP) : call L (addrClass a.ver) [(none, .ok (.text (L.addrText a)))] = .ok (.ip a) := by
  have hb := L.addr_back a
  have h4 : isFun "IPv4Address" = true := by decide +kernel
  have h6 : isFun "IPv6Address" = true := by decide +kernel
  obtain ⟨v, val, lt⟩ := a
  cases v with
  | v4 =>
    simp only [addrClass] at hb ⊢
    simp only [call, h4, if_true, allOk, apply, true_or, hb]
  | v6 =>
    have hne : "IPv6Address" ≠ "IPv4Address" := by decide
    simp only [addrClass] at hb ⊢
    simp only [call, h6, if_true, allOk, apply, or_true, hne, if_false, hb]

theorem call_net (L : IpLib) (a : Net) : call L (netClass a.ver) [(none, .ok (.text (L.netText a)))] = .ok (.net a) := by
  have hb := L.net_back a
  have h4 : isFun "IPv4Network" = true := by decide +kernel
  have h6 : isFun "IPv6Network" = true := by decide +kernel
  have e1 : ¬ ("IPv4Network" = "IPv4Address" ∨ "IPv4Network" = "IPv6Address") := by decide
  have e2 : ¬ ("IPv6Network" = "IPv4Address" ∨ "IPv6Network" = "IPv6Address") := by decide
  obtain ⟨v, base, plen, p1, p2, p3⟩ := a
  cases v with
  | v4 =>
    simp only [netClass] at hb ⊢
    simp only [call, h4, if_true, allOk, apply, e1, if_false, true_or, hb]
  | v6 =>
    have hne : "IPv6Network" ≠ "IPv4Network" := by decide
    simp only [netClass] at hb ⊢
    simp only [call, h6, if_true, allOk, apply, e2, or_true, hne, if_false, hb]

theorem good_obj (L : IpLib) (c : String) (ks : List String) (vs : List RVal) (hk : Known (.obj c ks vs))
    (hg : ∀ p ∈ ks.zip vs, isPrivate p.1 = false → Good L p.2) : Good L (.obj c ks vs) := by
  obtain ⟨⟨d, hd, hlen, hnd, hkeys, htyp⟩, _⟩ := hk
  obtain ⟨hm, hname⟩ := find_class hd
  have hf := class_facts hm
  obtain ⟨ps, h1, h2, h3⟩ := obj_items L ks vs hlen (fun k hk hp => hf.attrs k ((hkeys k hp).mp hk)) hg
  have hfun : isFun c = true := by
    unfold isFun
    rw [Bool.or_eq_true]
    right
    rw [List.any_eq_true]
    exact ⟨d, hm, by simpa using hname⟩
  have hcw : Word c.toList := hname ▸ hf.name
  refine ⟨call L c (ps.map (·.2)), fun n s hn hs => ?_, ?_⟩
  · obtain ⟨n', rfl⟩ : ∃ n', n = n' + 1 := ⟨n - 1, by omega⟩
    rw [reprOf, represent, ← h1] at hn ⊢
    rw [List.append_assoc, List.append_assoc, List.cons_append, pExpr_call L hcw]
    have hi := pItems_commas L (.inl rfl) ps n' s h2 (by
      obtain ⟨⟨c', r, hc, _⟩, _⟩ := hcw
      rw [hc] at hn
      simp only [List.length_append, List.length_cons, List.length_nil] at hn
      omega)
    simp only [List.cons_append, List.nil_append]
    rw [hi, Option.map_some, String.ofList_toList]
  · unfold Outcome
    simp only [fault]
    cases hfp : faultPub ks vs with
    | some e =>
      rw [hfp] at h3
      simp only [call, hfun, if_true, h3]
    | none =>
      rw [hfp] at h3
      obtain ⟨kw, ha, hb, hc⟩ := h3
      have happ : apply L c (kw.map (fun p => (some p.1, p.2))) = construct d kw := by
        obtain ⟨n1, n2, n3, n4⟩ := hf.notAddr
        rw [hname] at n1 n2 n3 n4
        unfold apply
        rw [if_neg (by simp [n1, n2]), if_neg (by simp [n3, n4]), hd]
        have e1 : ∀ kw : List (String × RVal), positional (kw.map (fun p => ((some p.1 : Option String), p.2))) = [] := by
          intro kw
          induction kw with
          | nil => rfl
          | cons p kw ih => simpa [positional] using ih
        have e2 : ∀ kw : List (String × RVal), keywords (kw.map (fun p => ((some p.1 : Option String), p.2))) = kw := by
          intro kw
          induction kw with
          | nil => rfl
          | cons p kw ih => simpa [keywords] using ih
        simp only [e1, e2, List.zip_nil_right, List.nil_append, List.length_nil]
        rw [if_pos]
        refine ⟨Nat.zero_le _, ?_⟩
        have hb' : kw.map Prod.fst = ks.filter (fun k => !isPrivate k) := hb
        rw [hb']
        exact hnd.sublist List.filter_sublist
      have hcs := construct_same hf hlen hkeys htyp hb hc
      simp only [call, hfun, if_true, ha, happ]
      by_cases hu : c = "UDPMessage"
      · simp only [hu, if_true]
        exact hcs.1 (hname.trans hu)
      · simp only [hu, if_false]
        have := hcs.2 (by rw [hname]; exact hu)
        rw [hname] at this
        exact this

mutual
theorem good (L : IpLib) : ∀ v, Known v → Good L v
  | .none, _ => ⟨.ok .none, fun n s hn hs => by
      obtain ⟨n', rfl⟩ : ∃ n', n = n' + 1 := ⟨n - 1, by omega⟩
      rw [reprOf, reprName, pExpr_name L word_None n' s hs, nameVal, if_pos rfl], by
      simp only [Outcome, fault]; exact ⟨_, rfl, .none⟩⟩
  | .bool b, _ => ⟨.ok (.bool b), fun n s hn hs => by
      obtain ⟨n', rfl⟩ : ∃ n', n = n' + 1 := ⟨n - 1, by omega⟩
      rw [reprOf, reprBool]
      cases b with
      | true =>
        rw [if_pos rfl, reprName, pExpr_name L word_True n' s hs, nameVal, if_neg (by decide), if_pos rfl]
      | false =>
        rw [if_neg (by decide), reprName, pExpr_name L word_False n' s hs, nameVal, if_neg (by decide),
          if_neg (by decide), if_pos rfl], by
      simp only [Outcome, fault]; exact ⟨_, rfl, .bool b⟩⟩
  | .int i long, _ => ⟨.ok (.int i long), fun n s hn hs => by
      obtain ⟨n', rfl⟩ : ∃ n', n = n' + 1 := ⟨n - 1, by omega⟩
      rw [reprOf, reprInt]
      by_cases hi : i < 0
      · rw [if_pos hi, List.append_assoc, List.append_assoc, List.cons_append, List.nil_append, pExpr,
          skip_cons (by decide)]
        simp only [show ¬ (('-' : Char) = '\'' ∨ ('-' : Char) = '"') by decide, show ('-' : Char) ≠ '[' by decide,
          if_false, if_true]
        rw [← List.append_assoc, pNum_digits true long i.natAbs s hs, if_pos rfl]
        have : -(i.natAbs : Int) = i := by omega
        rw [this]
      · rw [if_neg hi, List.nil_append]
        have hp := pNum_digits false long i.natAbs s hs
        simp only [Bool.false_eq_true, if_false] at hp
        have : (i.natAbs : Int) = i := by omega
        rw [this] at hp
        cases hd : digits i.natAbs with
        | nil => exact absurd hd (digitsF_ne _ _)
        | cons c w =>
          have hc : isDig c = true := digitsF_dig i.natAbs i.natAbs c (by
            have : c ∈ digits i.natAbs := by rw [hd]; exact List.mem_cons_self
            exact this)
          have hfc := dig_facts hc
          rw [hd] at hp
          rw [List.cons_append, List.cons_append] at hp ⊢
          rw [pExpr, skip_cons hfc.2.1]
          simp only [hfc.2.2.2.2.2.1, hfc.2.2.2.2.2.2.1, hfc.2.2.2.2.2.2.2.1, hfc.2.2.2.2.2.2.2.2, or_self, if_false, hc,
            if_true]
          exact hp, by
      simp only [Outcome, fault]; exact ⟨_, rfl, .int i long long⟩⟩
  | .str b, _ => ⟨.ok (.str b), fun n s hn hs => by
      obtain ⟨n', rfl⟩ : ∃ n', n = n' + 1 := ⟨n - 1, by omega⟩
      rw [reprOf, reprStr]
      have hq := quoteFor_or b
      generalize hqe : quoteFor b = q at hq
      rw [List.append_assoc, List.cons_append]
      simp only [List.cons_append, List.nil_append]
      rw [pExpr, skip_cons (by rcases hq with rfl | rfl <;> decide)]
      simp only [hq, if_true]
      rw [pStr_esc q hq b _ s (by
        have := flatMap_esc_len q b
        simp only [List.length_append, List.length_cons]
        omega)]
      rfl, by
      simp only [Outcome, fault]; exact ⟨_, rfl, .str b⟩⟩
  | .text _, h => by cases h
  | .list l, h => by
      have hl : KnownAll l := h
      have hg := goodAll L l hl
      obtain ⟨ps, h1, h2, h3, h4⟩ := list_items L l hl hg
      have hall : (ps.map (·.2)).all (fun i : Arg => i.1.isNone) = true := by
        rw [List.all_eq_true]
        intro a ha
        obtain ⟨p, hp, rfl⟩ := List.mem_map.mp ha
        rw [h3 p hp]; rfl
      refine ⟨match allOk (ps.map (·.2)) with | .error e => .error e | .ok vs => .ok (.list (vs.map (·.2))),
        fun n s hn hs => ?_, ?_⟩
      · obtain ⟨n', rfl⟩ : ∃ n', n = n' + 1 := ⟨n - 1, by omega⟩
        rw [reprOf, reprItems, ← h1] at hn ⊢
        rw [List.cons_append, List.cons_append, List.append_assoc, pExpr, skip_cons (by decide)]
        simp only [show ¬ (('[' : Char) = '\'' ∨ ('[' : Char) = '"') by decide, if_false, if_true]
        have hi := pItems_commas L (.inr rfl) ps n' s h2 (by
          simp only [List.length_append, List.length_cons, List.length_nil] at hn
          omega)
        simp only [List.cons_append, List.nil_append]
        rw [hi]
        simp only [listOf, hall, if_true, Option.map_some]
        cases allOk (ps.map (·.2)) <;> rfl
      · unfold Outcome
        simp only [fault]
        cases hfa : faultAll l with
        | some e =>
          rw [hfa] at h4
          simp only [h4]
        | none =>
          rw [hfa] at h4
          obtain ⟨vs, hv, hs⟩ := h4
          exact ⟨_, by simp only [hv], .list _ _ hs.1 hs.2⟩
  | .ip a, _ => ⟨.ok (.ip a), fun n s hn hs => by
      rw [reprOf] at hn ⊢
      rw [call_one L (word_addrClass a.ver) (reads_text L _ (fun c hc => addr_char (L.addr_chars a c hc))) n s hn,
        call_addr], by
      simp only [Outcome, fault]; exact ⟨_, rfl, .ip a⟩⟩
  | .net a, _ => ⟨.ok (.net a), fun n s hn hs => by
      rw [reprOf] at hn ⊢
      rw [call_one L (word_netClass a.ver) (reads_text L _ (fun c hc => addr_char (L.net_chars a c hc))) n s hn,
        call_net], by
      simp only [Outcome, fault]; exact ⟨_, rfl, .net a⟩⟩
  | .auto v i, h => ⟨.error .name, fun n s hn hs => by
      have h' : IfName i := h
      obtain ⟨⟨c, w, hc, hcs⟩, hall, n1, n2, n3⟩ := h'
      have hw : Word i.toList := ⟨⟨c, w, hc, hcs⟩, hall⟩
      have hv : nameVal i.toList = .error .name := by
        unfold nameVal
        rw [if_neg (fun e => n1 (String.toList_inj.mp e)), if_neg (fun e => n2 (String.toList_inj.mp e)),
          if_neg (fun e => n3 (String.toList_inj.mp e))]
      have hr : Reads L i.toList (none, .error .name) := by
        refine ⟨by simpa using hw.begins [], fun n s hn hs => ?_⟩
        obtain ⟨n', rfl⟩ : ∃ n', n = n' + 1 := ⟨n - 1, by omega⟩
        rw [itemAt, pKey_word hw s hs.not_name hs.not_eq, pExpr_name L hw n' s hs, hv]
        rfl
      have hfun : isFun (autoClass v) = true := by cases v <;> decide +kernel
      rw [reprOf] at hn ⊢
      rw [call_one L (word_autoClass v) hr n s hn]
      simp only [call, hfun, if_true, allOk], by
      simp only [Outcome, fault]⟩
  | .obj c ks vs, h => good_obj L c ks vs h (goodPub L ks vs h.2)
  | .other, h => by cases h
termination_by structural v => v
theorem goodAll (L : IpLib) : ∀ l, KnownAll l → ∀ x ∈ l, Good L x
  | [], _, x, hx => by cases hx
  | v :: l, h, x, hx => by
    rcases List.mem_cons.mp hx with hx | hx
    · have := good L v h.1
      rw [hx]; exact this
    · exact goodAll L l h.2 x hx
termination_by structural l => l
theorem goodPub (L : IpLib) : ∀ ks vs, KnownPub ks vs → ∀ p ∈ ks.zip vs, isPrivate p.1 = false → Good L p.2
  | _, [], _, p, hp, _ => by simp at hp
  | [], _ :: _, _, p, hp, _ => by simp at hp
  | k :: ks, v :: vs, h, p, hp, hpr => by
    simp only [List.zip_cons_cons] at hp
    rcases List.mem_cons.mp hp with hp | hp
    · rw [hp] at hpr ⊢
      exact good L v (h.1 hpr)
    · exact goodPub L ks vs h.2 p hp hpr
termination_by structural _ vs => vs
end

end PyLisp.Rep

namespace PyLisp.Rep

/-! ### sameness -/

theorem Same.symm {a b : RVal} (h : Same a b) : Same b a := by
  induction h with
  | none => exact .none
  | bool b => exact .bool b
  | int i a b => exact .int i b a
  | str b => exact .str b
  | ip a => exact .ip a
  | net a => exact .net a
  | list l l' hl _ ih => exact .list _ _ hl.symm (fun i x y hx hy => ih i y x hy hx)
  | obj c ks ks' vs vs' h1 _ ih =>
    exact .obj _ _ _ _ _ (fun k hk => (h1 k hk).symm) (fun k x y hk hx hy => ih k y x hk hy hx)

theorem Same.trans {a b c : RVal} (h : Same a b) (h' : Same b c) : Same a c := by
  induction h generalizing c with
  | none => exact h'
  | bool b => exact h'
  | int i a b => cases h'; exact .int _ _ _
  | str b => exact h'
  | ip a => exact h'
  | net a => exact h'
  | list l l' hl _ ih =>
    cases h' with
    | list _ l'' hl' hs' =>
      refine .list _ _ (hl.trans hl') (fun i x z hx hz => ?_)
      have hi : i < l'.length := by
        have := (List.getElem?_eq_some_iff.mp hx).1
        omega
      exact ih i x l'[i] hx (List.getElem?_eq_getElem hi) (hs' i _ z (List.getElem?_eq_getElem hi) hz)
  | obj c ks ks' vs vs' h1 _ ih =>
    cases h' with
    | obj _ _ ks'' _ vs'' h1' hs' =>
      refine .obj _ _ _ _ _ (fun k hk => (h1 k hk).trans (h1' k hk)) (fun k x z hk hx hz => ?_)
      have : (attrOf ks' vs' k).isSome := (h1 k hk).mp (by simp [hx])
      obtain ⟨y, hy⟩ := Option.isSome_iff_exists.mp this
      exact ih k x y hk hx hy (hs' k y z hk hy hz)

mutual
/-- dictionaries have each key once -/
def Proper : RVal → Prop
  | .list l => ProperAll l
  | .obj _ ks vs => (ks.length = vs.length ∧ ks.Nodup) ∧ ProperPub ks vs
  | .none => True
  | .bool _ => True
  | .int _ _ => True
  | .str _ => True
  | .text _ => True
  | .ip _ => True
  | .net _ => True
  | .auto _ _ => True
  | .other => True
/-- in all values of a list -/
def ProperAll : List RVal → Prop
  | [] => True
  | v :: l => Proper v ∧ ProperAll l
/-- in all values of public attributes -/
def ProperPub : List String → List RVal → Prop
  | k :: ks, v :: vs => (isPrivate k = false → Proper v) ∧ ProperPub ks vs
  | [], _ => True
  | _ :: _, [] => True
end

theorem knownAll_iff (l : List RVal) : KnownAll l ↔ ∀ (i : Nat) x, l[i]? = some x → Known x := by
  induction l with
  | nil => simp [KnownAll]
  | cons v l ih =>
    rw [KnownAll, ih]
    constructor
    · rintro ⟨h1, h2⟩ i x hx
      cases i with
      | zero => simp at hx; subst hx; exact h1
      | succ i => exact h2 i x (by simpa using hx)
    · intro h
      exact ⟨h 0 v (by simp), fun i x hx => h (i + 1) x (by simpa using hx)⟩

theorem properAll_get (l : List RVal) (h : ProperAll l) : ∀ (i : Nat) x, l[i]? = some x → Proper x := by
  induction l with
  | nil => simp
  | cons v l ih =>
    intro i x hx
    cases i with
    | zero => simp at hx; subst hx; exact h.1
    | succ i => exact ih h.2 i x (by simpa using hx)

theorem faultAll_none (l : List RVal) : faultAll l = none ↔ ∀ (i : Nat) x, l[i]? = some x → fault x = none := by
  induction l with
  | nil => simp [faultAll]
  | cons v l ih =>
    rw [faultAll]
    constructor
    · intro h i x hx
      cases hv : fault v with
      | some e => rw [hv] at h; cases h
      | none =>
        rw [hv] at h
        cases i with
        | zero => simp at hx; subst hx; exact hv
        | succ i => exact ih.mp h i x (by simpa using hx)
    · intro h
      rw [h 0 v (by simp)]
      exact ih.mpr (fun i x hx => h (i + 1) x (by simpa using hx))

theorem attr_cons (k' : String) (v : RVal) (ks : List String) (vs : List RVal) (k : String) :
    attrOf (k' :: ks) (v :: vs) k = if k = k' then some v else attrOf ks vs k := by
  simp only [attrOf, List.zip_cons_cons, List.lookup]
  by_cases h : k = k'
  · subst h; simp
  · have : (k == k') = false := by simpa using h
    simp [this, h]

theorem attr_mem {ks : List String} {vs : List RVal} {k : String} {x : RVal} (h : attrOf ks vs k = some x) : k ∈ ks := by
  have := lookup_mem _ _ _ h
  exact (List.of_mem_zip this).1

theorem knownPub_iff : ∀ (ks : List String) (vs : List RVal), ks.Nodup →
    (KnownPub ks vs ↔ ∀ k x, isPrivate k = false → attrOf ks vs k = some x → Known x)
  | [], vs, _ => by simp [KnownPub, attrOf]
  | k :: ks, [], _ => by simp [KnownPub, attrOf]
  | k :: ks, v :: vs, hn => by
    obtain ⟨hk, hn'⟩ := List.nodup_cons.mp hn
    rw [KnownPub, knownPub_iff ks vs hn']
    constructor
    · rintro ⟨h1, h2⟩ k' x hp hx
      rw [attr_cons] at hx
      split at hx
      · rename_i e; simp only [Option.some.injEq] at hx; subst hx e; exact h1 hp
      · exact h2 k' x hp hx
    · intro h
      refine ⟨fun hp => h k v hp (by simp [attr_cons]), fun k' x hp hx => h k' x hp ?_⟩
      rw [attr_cons, if_neg]
      · exact hx
      · rintro rfl; exact hk (attr_mem hx)

theorem properPub_get : ∀ (ks : List String) (vs : List RVal), ProperPub ks vs →
    ∀ k x, isPrivate k = false → attrOf ks vs k = some x → Proper x
  | [], vs, _ => by simp [attrOf]
  | k :: ks, [], _ => by simp [attrOf]
  | k :: ks, v :: vs, h => by
    intro k' x hp hx
    rw [attr_cons] at hx
    split at hx
    · rename_i e; simp only [Option.some.injEq] at hx; subst hx e; exact h.1 hp
    · exact properPub_get ks vs h.2 k' x hp hx

theorem faultPub_none : ∀ (ks : List String) (vs : List RVal), ks.Nodup →
    (faultPub ks vs = none ↔ ∀ k x, isPrivate k = false → attrOf ks vs k = some x → fault x = none)
  | [], vs, _ => by simp [faultPub, attrOf]
  | k :: ks, [], _ => by simp [faultPub, attrOf]
  | k :: ks, v :: vs, hn => by
    obtain ⟨hk, hn'⟩ := List.nodup_cons.mp hn
    have ih := faultPub_none ks vs hn'
    rw [faultPub]
    constructor
    · intro h k' x hp hx
      rw [attr_cons] at hx
      split at hx
      · rename_i e
        simp only [Option.some.injEq] at hx
        subst hx e
        rw [hp] at h
        cases hv : fault v with
        | none => rfl
        | some e => rw [hv] at h; cases h
      · refine ih.mp ?_ k' x hp hx
        cases hpk : isPrivate k with
        | true => rw [hpk] at h; exact h
        | false =>
          rw [hpk] at h
          cases hv : fault v with
          | none => rw [hv] at h; exact h
          | some e => rw [hv] at h; cases h
    · intro h
      have h' : faultPub ks vs = none := ih.mpr (fun k' x hp hx => h k' x hp (by
        rw [attr_cons, if_neg]
        · exact hx
        · rintro rfl; exact hk (attr_mem hx)))
      cases hpk : isPrivate k with
      | true => exact h'
      | false => rw [h k v hpk (by simp [attr_cons])]; exact h'

/-- values that are the same as a known value are known, and raise or do not raise alike -/
theorem known_same {a v : RVal} (h : Same a v) : Known a → Proper a → Proper v →
    Known v ∧ (fault a = none ↔ fault v = none) := by
  induction h with
  | none => intro _ _ _; exact ⟨trivial, Iff.rfl⟩
  | bool b => intro _ _ _; exact ⟨trivial, Iff.rfl⟩
  | int i a b => intro _ _ _; exact ⟨trivial, by simp [fault]⟩
  | str b => intro _ _ _; exact ⟨trivial, Iff.rfl⟩
  | ip a => intro _ _ _; exact ⟨trivial, Iff.rfl⟩
  | net a => intro _ _ _; exact ⟨trivial, Iff.rfl⟩
  | list l l' hl _ ih =>
    intro hk ha hv
    have ka := (knownAll_iff l).mp hk
    have pa := properAll_get l ha
    have pv := properAll_get l' hv
    have key : ∀ (i : Nat) y, l'[i]? = some y → ∃ x, l[i]? = some x ∧ Known y ∧ (fault x = none ↔ fault y = none) := by
      intro i y hy
      have hi : i < l.length := by
        have := (List.getElem?_eq_some_iff.mp hy).1
        omega
      have hx := List.getElem?_eq_getElem hi
      exact ⟨_, hx, ih i _ y hx hy (ka i _ hx) (pa i _ hx) (pv i y hy)⟩
    refine ⟨(knownAll_iff l').mpr (fun i y hy => (key i y hy).elim fun _ h => h.2.1), ?_⟩
    simp only [fault]
    rw [faultAll_none, faultAll_none]
    constructor
    · intro h i y hy
      obtain ⟨x, hx, _, hf⟩ := key i y hy
      exact hf.mp (h i x hx)
    · intro h i x hx
      have hi : i < l'.length := by
        have := (List.getElem?_eq_some_iff.mp hx).1
        omega
      obtain ⟨x', hx', _, hf⟩ := key i _ (List.getElem?_eq_getElem hi)
      rw [hx] at hx'
      cases hx'
      exact hf.mpr (h i _ (List.getElem?_eq_getElem hi))
  | obj c ks ks' vs vs' h1 hs ih =>
    intro hk ha hv
    obtain ⟨⟨d, hd, hlen, hnd, hkeys, htyp⟩, hkp⟩ := hk
    obtain ⟨⟨hlen', hnd'⟩, hpp'⟩ := hv
    have ka := (knownPub_iff ks vs hnd).mp hkp
    have pa := properPub_get ks vs ha.2
    have pv := properPub_get ks' vs' hpp'
    have fwd : ∀ k y, isPrivate k = false → attrOf ks' vs' k = some y → ∃ x, attrOf ks vs k = some x ∧ Same x y ∧
        Known y ∧ (fault x = none ↔ fault y = none) := by
      intro k y hp hy
      obtain ⟨x, hx⟩ := Option.isSome_iff_exists.mp ((h1 k hp).mpr (by simp [hy]))
      exact ⟨x, hx, hs k x y hp hx hy, ih k x y hp hx hy (ka k x hp hx) (pa k x hp hx) (pv k y hp hy)⟩
    refine ⟨⟨⟨d, hd, hlen', hnd', fun k hp => ?_, fun k y hp hy => ?_⟩, (knownPub_iff ks' vs' hnd').mpr
      (fun k y hp hy => (fwd k y hp hy).elim fun _ h => h.2.2.1)⟩, ?_⟩
    · rw [← hkeys k hp, ← attr_isSome ks' vs' k hlen', ← attr_isSome ks vs k hlen]
      exact (h1 k hp).symm
    · obtain ⟨x, hx, hxy, _, _⟩ := fwd k y hp hy
      obtain ⟨t1, t2, t3⟩ := htyp k x hp hx
      refine ⟨fun h => ?_, fun h => ?_, fun h => ?_⟩
      · have := t1 h; subst this; cases hxy; rfl
      · obtain ⟨l, rfl⟩ := t2 h; cases hxy; exact ⟨_, rfl⟩
      · obtain ⟨i, b, rfl⟩ := t3 h; cases hxy; exact ⟨_, _, rfl⟩
    · simp only [fault]
      have e : faultPub ks vs = none ↔ faultPub ks' vs' = none := by
        rw [faultPub_none ks vs hnd, faultPub_none ks' vs' hnd']
        constructor
        · intro h k y hp hy
          obtain ⟨x, hx, _, _, hf⟩ := fwd k y hp hy
          exact hf.mp (h k x hp hx)
        · intro h k x hp hx
          obtain ⟨y, hy⟩ := Option.isSome_iff_exists.mp ((h1 k hp).mp (by simp [hx]))
          obtain ⟨x', hx', _, _, hf⟩ := fwd k y hp hy
          rw [hx] at hx'
          cases hx'
          exact hf.mpr (h k y hp hy)
      cases h1 : faultPub ks vs with
      | some a =>
        cases h2 : faultPub ks' vs' with
        | some b => simp
        | none => exact absurd (e.mpr h2) (by simp [h1])
      | none => rw [e.mp h1]

end PyLisp.Rep

namespace PyLisp.Rep

mutual
theorem known_proper : ∀ v, Known v → Proper v
  | .list l, h => knownAll_proper l h
  | .obj _ ks vs, h => ⟨by obtain ⟨⟨d, _, h1, h2, _⟩, _⟩ := h; exact ⟨h1, h2⟩, knownPub_proper ks vs h.2⟩
  | .none, _ => trivial
  | .bool _, _ => trivial
  | .int _ _, _ => trivial
  | .str _, _ => trivial
  | .text _, _ => trivial
  | .ip _, _ => trivial
  | .net _, _ => trivial
  | .auto _ _, _ => trivial
  | .other, _ => trivial
termination_by structural v => v
theorem knownAll_proper : ∀ l, KnownAll l → ProperAll l
  | [], _ => trivial
  | v :: l, h => ⟨known_proper v h.1, knownAll_proper l h.2⟩
termination_by structural l => l
theorem knownPub_proper : ∀ ks vs, KnownPub ks vs → ProperPub ks vs
  | [], _, _ => by simp [ProperPub]
  | _ :: _, [], _ => by simp [ProperPub]
  | k :: ks, v :: vs, h => ⟨fun hp => known_proper v (h.1 hp), knownPub_proper ks vs h.2⟩
termination_by structural _ vs => vs
end

theorem faultAll_range : ∀ (l : List RVal),
    (∀ (i : Nat) y, l[i]? = some y → fault y = none ∨ fault y = some .type) →
    faultAll l = none ∨ faultAll l = some .type
  | [], _ => .inl rfl
  | v :: l, h => by
    rw [faultAll]
    rcases h 0 v (by simp) with e | e
    · rw [e]; exact faultAll_range l (fun i y hy => h (i + 1) y (by simpa using hy))
    · rw [e]; exact .inr rfl

theorem faultPub_range : ∀ (ks : List String) (vs : List RVal), ks.Nodup →
    (∀ k y, isPrivate k = false → attrOf ks vs k = some y → fault y = none ∨ fault y = some .type) →
    faultPub ks vs = none ∨ faultPub ks vs = some .type
  | [], vs, _, _ => .inl (by simp [faultPub])
  | k :: ks, [], _, _ => .inl (by simp [faultPub])
  | k :: ks, v :: vs, hn, h => by
    obtain ⟨hk, hn'⟩ := List.nodup_cons.mp hn
    have ih := faultPub_range ks vs hn' (fun k' x hp hx => h k' x hp (by
      rw [attr_cons, if_neg]
      · exact hx
      · rintro rfl; exact hk (attr_mem hx)))
    rw [faultPub]
    cases hp : isPrivate k with
    | true => exact ih
    | false =>
      rcases h k v hp (by simp [attr_cons]) with e | e
      · rw [e]; exact ih
      · rw [e]; exact .inr rfl

/-- no automatic address in it: only a TypeError can be raised -/
theorem fault_same {a v : RVal} (h : Same a v) : Proper v → fault v = none ∨ fault v = some .type := by
  induction h with
  | none => intro _; exact .inl rfl
  | bool b => intro _; exact .inl rfl
  | int i a b => intro _; exact .inl rfl
  | str b => intro _; exact .inl rfl
  | ip a => intro _; exact .inl rfl
  | net a => intro _; exact .inl rfl
  | list l l' hl _ ih =>
    intro hv
    have pv := properAll_get l' hv
    simp only [fault]
    refine faultAll_range l' (fun i y hy => ?_)
    have hi : i < l.length := by
      have := (List.getElem?_eq_some_iff.mp hy).1
      omega
    exact ih i _ y (List.getElem?_eq_getElem hi) hy (pv i y hy)
  | obj c ks ks' vs vs' h1 hs ih =>
    intro hv
    have pv := properPub_get ks' vs' hv.2
    simp only [fault]
    rcases faultPub_range ks' vs' hv.1.2 (fun k y hp hy => by
      obtain ⟨x, hx⟩ := Option.isSome_iff_exists.mp ((h1 k hp).mpr (by simp [hy]))
      exact ih k x y hp hx hy (pv k y hp hy)) with e | e
    · rw [e]
      by_cases hu : c = "UDPMessage" <;> simp [hu]
    · rw [e]; exact .inr rfl

/-! ### packets and messages are known -/

/-- what the constructor of a class requires of an attribute (see `Typical`): 0 nothing, 1 None, 2 a list, 3 a number -/
def need (d : ClassDef) (k : String) : Nat :=
  if d.fixed.contains k then 1
  else match d.args.lookup k with
    | some .orEmpty => 2
    | some .orProtocol => 3
    | _ => 0

def fit : Nat → RVal → Prop
  | 1, v => v = .none
  | 2, v => ∃ l, v = .list l
  | 3, v => ∃ i b, v = .int i b
  | _, _ => True

/-- the keys are the attributes of the class: what they require -/
def shape (c : String) (ks : List String) : Option (List Nat) :=
  match classes.find? (fun d => d.name == c) with
  | none => none
  | some d =>
    if ks.Nodup ∧ ks.all (fun k => !isPrivate k && d.attrNames.contains k) ∧ d.attrNames.all (fun k => ks.contains k) ∧
        ks.all (fun k => !d.fixed.contains k || (match d.args.lookup k with
          | some .orEmpty => false | some .orProtocol => false | _ => true))
      then some (ks.map (need d)) else none

/-- values that fit -/
def Fits : List Nat → List RVal → Prop
  | n :: ns, v :: vs => (Known v ∧ fit n v) ∧ Fits ns vs
  | [], [] => True
  | _, _ => False

theorem fits_len : ∀ (ns : List Nat) (vs : List RVal), Fits ns vs → ns.length = vs.length
  | [], [], _ => rfl
  | [], _ :: _, h => by simp [Fits] at h
  | _ :: _, [], h => by simp [Fits] at h
  | n :: ns, v :: vs, h => by simp [fits_len ns vs h.2]

theorem fits_attr (f : String → Nat) : ∀ (ks : List String) (vs : List RVal), Fits (ks.map f) vs →
    ∀ k x, attrOf ks vs k = some x → Known x ∧ fit (f k) x
  | [], _, _ => by simp [attrOf]
  | k' :: ks, [], h => by simp [Fits] at h
  | k' :: ks, v :: vs, h => by
    intro k x hx
    rw [attr_cons] at hx
    split at hx
    · rename_i e; simp only [Option.some.injEq] at hx; subst hx e; exact h.1
    · exact fits_attr f ks vs h.2 k x hx

theorem known_mk (c : String) (ks : List String) (vs : List RVal) (ns : List Nat) (h : shape c ks = some ns)
    (hf : Fits ns vs) : Known (.obj c ks vs) ∧ (c ≠ "UDPMessage" → fault (.obj c ks vs) = faultAll vs) ∧
      (c = "UDPMessage" → (faultAll vs = none ∨ faultAll vs = some .type) → fault (.obj c ks vs) = some .type) := by
  unfold shape at h
  split at h
  · cases h
  rename_i d hd
  split at h
  · rename_i hc
    simp only [Option.some.injEq] at h
    subst h
    obtain ⟨h1, h2, h3, h4⟩ := hc
    have hlen : ks.length = vs.length := by simpa using fits_len _ _ hf
    have hat := fits_attr _ ks vs hf
    have hpub : ∀ k ∈ ks, isPrivate k = false := fun k hk => by
      have := List.all_eq_true.mp h2 k hk
      simp at this
      exact this.1
    have hfp : ∀ (ks : List String) (vs : List RVal), ks.length = vs.length → (∀ k ∈ ks, isPrivate k = false) →
        faultPub ks vs = faultAll vs := by
      intro ks
      induction ks with
      | nil => intro vs hl _; cases vs with
        | nil => simp [faultPub, faultAll]
        | cons v vs => simp at hl
      | cons k ks ih => intro vs hl hp; cases vs with
        | nil => simp at hl
        | cons v vs =>
          rw [faultPub, faultAll, hp k List.mem_cons_self, ih vs (by simpa using hl) (fun k hk => hp k (List.mem_cons_of_mem _ hk))]
          rfl
    refine ⟨⟨⟨d, hd, hlen, h1, fun k hp => ⟨fun hk => ?_, fun hk => ?_⟩, fun k x hp hx => ?_⟩,
      (knownPub_iff ks vs h1).mpr (fun k x _ hx => (hat k x hx).1)⟩, fun hu => ?_, fun hu hr => ?_⟩
    · have := List.all_eq_true.mp h2 k hk
      simp at this
      exact this.2
    · simpa using List.all_eq_true.mp h3 k hk
    · have hfit := (hat k x hx).2
      have hex := List.all_eq_true.mp h4 k (attr_mem hx)
      unfold need at hfit
      refine ⟨fun hfix => ?_, fun hl => ?_, fun hl => ?_⟩
      · rw [if_pos (by simpa using hfix)] at hfit
        exact hfit
      · by_cases hfix : k ∈ d.fixed
        · exfalso; simp [hfix, hl] at hex
        · rw [if_neg (by simpa using hfix), hl] at hfit
          exact hfit
      · by_cases hfix : k ∈ d.fixed
        · exfalso; simp [hfix, hl] at hex
        · rw [if_neg (by simpa using hfix), hl] at hfit
          exact hfit
    · rw [fault, hfp ks vs hlen hpub]
      cases faultAll vs with
      | none => simp [hu]
      | some e => rfl
    · rw [fault, hfp ks vs hlen hpub]
      rcases hr with e | e
      · rw [e]; simp [hu]
      · rw [e]
  · cases h

end PyLisp.Rep

namespace PyLisp.Rep

/-- known and without fault -/
def Fine (v : RVal) : Prop := Known v ∧ fault v = none

theorem fine_mk (c : String) (ks : List String) (vs : List RVal) (ns : List Nat) (h : shape c ks = some ns)
    (hu : c ≠ "UDPMessage") (hf : Fits ns vs) (hz : faultAll vs = none) : Fine (.obj c ks vs) :=
  ⟨(known_mk c ks vs ns h hf).1, ((known_mk c ks vs ns h hf).2.1 hu).trans hz⟩

theorem fine_list {α : Type} (f : α → RVal) (hf : ∀ a, Fine (f a)) : ∀ l : List α,
    KnownAll (l.map f) ∧ faultAll (l.map f) = none
  | [] => ⟨trivial, rfl⟩
  | a :: l => by
    have := fine_list f hf l
    simp only [List.map_cons, KnownAll, faultAll, (hf a).2]
    exact ⟨⟨(hf a).1, this.1⟩, this.2⟩

theorem fine_int (i : Int) : Fine (vInt i) := ⟨trivial, rfl⟩

mutual
theorem fine_addr : ∀ a, Fine (addrVal a)
  | .none => ⟨by simp [addrVal, Known], by simp [addrVal, fault]⟩
  | .ip a => ⟨by simp [addrVal, Known], by simp [addrVal, fault]⟩
  | .net a => ⟨by simp [addrVal, Known], by simp [addrVal, fault]⟩
  | .null => by
    rw [addrVal]
    exact fine_mk _ [] [] [] (by decide +kernel) (by decide) (by simp [Fits]) rfl
  | .afiList l => by
    have h := fine_addrs l
    rw [addrVal]
    exact fine_mk _ ["addresses"] [.list (addrVals l)] [2] (by decide +kernel) (by decide)
      (by simp [Fits, fit, Known, h.1]) (by simp [faultAll, fault, h.2])
  | .inst i a m => by
    have h := fine_addr a
    rw [addrVal]
    exact fine_mk _ ["instance_id", "address", "iid_mask_len"] [vInt i, addrVal a, vInt m] [0, 0, 0] (by decide +kernel)
      (by decide) (by simp [Fits, fit, vInt, Known, h.1]) (by simp [faultAll, vInt, fault, h.2])
  | .asn n a => by
    have h := fine_addr a
    rw [addrVal]
    exact fine_mk _ ["asn", "address"] [vInt n, addrVal a] [0, 0] (by decide +kernel)
      (by decide) (by simp [Fits, fit, vInt, Known, h.1]) (by simp [faultAll, vInt, fault, h.2])
  | .geo n ld lm ls e od om os alt a => by
    have h := fine_addr a
    rw [addrVal]
    exact fine_mk _ ["north", "latitude_degrees", "latitude_minutes", "latitude_seconds", "east", "longitude_degrees",
      "longitude_minutes", "longitude_seconds", "altitude", "address"]
      [.bool n, vInt ld, vInt lm, vInt ls, .bool e, vInt od, vInt om, vInt os, vInt alt, addrVal a]
      [0, 0, 0, 0, 0, 0, 0, 0, 0, 0] (by decide +kernel) (by decide) (by simp [Fits, fit, vInt, Known, h.1])
      (by simp [faultAll, vInt, fault, h.2])
  | .natT mp ep g m p r => by
    have h1 := fine_addr g
    have h2 := fine_addr m
    have h3 := fine_addr p
    have h4 := fine_addrs r
    rw [addrVal]
    exact fine_mk _ ["map_server_port", "etr_port", "global_etr_rloc", "map_server_rloc", "private_etr_rloc", "rtr_rlocs"]
      [vInt mp, vInt ep, addrVal g, addrVal m, addrVal p, .list (addrVals r)] [0, 0, 0, 0, 0, 2] (by decide +kernel)
      (by decide) (by simp [Fits, fit, vInt, Known, h1.1, h2.1, h3.1, h4.1])
      (by simp [faultAll, vInt, fault, h1.2, h2.2, h3.2, h4.2])
theorem fine_addrs : ∀ l, KnownAll (addrVals l) ∧ faultAll (addrVals l) = none
  | [] => by simp [addrVals, KnownAll, faultAll]
  | a :: l => by
    have h := fine_addr a
    have hl := fine_addrs l
    simp [addrVals, KnownAll, faultAll, h.1, h.2, hl]
end

theorem fine_loc (l : Locator) : Fine (locVal l) := by
  have h := fine_addr l.address
  exact fine_mk _ ["priority", "weight", "m_priority", "m_weight", "local", "probed_locator", "reachable", "address"]
    [vInt l.priority, vInt l.weight, vInt l.mPriority, vInt l.mWeight, .bool l.isLocal, .bool l.probed,
      .bool l.reachable, addrVal l.address] [0, 0, 0, 0, 0, 0, 0, 0] (by decide +kernel) (by decide)
    (by simp [Fits, fit, vInt, Known, h.1]) (by simp [faultAll, vInt, fault, h.2])

theorem fine_rec (c : String) (hc : c = "MapReplyRecord" ∨ c = "MapRegisterRecord") (r : Record) : Fine (recVal c r) := by
  have h := fine_addr r.eid
  have hl := fine_list locVal fine_loc r.locators
  rcases hc with rfl | rfl
  · exact fine_mk _ ["ttl", "action", "authoritative", "map_version", "eid_prefix", "locator_records"]
      [vInt r.ttl, vInt r.action, .bool r.authoritative, vInt r.mapVersion, addrVal r.eid, .list (r.locators.map locVal)]
      [0, 0, 0, 0, 0, 2] (by decide +kernel) (by decide) (by simp [Fits, fit, vInt, Known, h.1, hl.1])
      (by simp [faultAll, vInt, fault, h.2, hl.2])
  · exact fine_mk _ ["ttl", "action", "authoritative", "map_version", "eid_prefix", "locator_records"]
      [vInt r.ttl, vInt r.action, .bool r.authoritative, vInt r.mapVersion, addrVal r.eid, .list (r.locators.map locVal)]
      [0, 0, 0, 0, 0, 2] (by decide +kernel) (by decide) (by simp [Fits, fit, vInt, Known, h.1, hl.1])
      (by simp [faultAll, vInt, fault, h.2, hl.2])

theorem fine_ref (r : RefRecord) (hs : r.sigs = 0) : Fine (refVal r) := by
  have h := fine_addr r.eid
  have hl := fine_list locVal fine_loc r.locators
  exact fine_mk _ ["ttl", "action", "authoritative", "incomplete", "map_version", "eid_prefix", "locator_records", "signatures"]
    [vInt r.ttl, vInt r.action, .bool r.authoritative, .bool r.incomplete, vInt r.mapVersion, addrVal r.eid,
      .list (r.locators.map locVal), .list (List.replicate r.sigs .other)]
    [0, 0, 0, 0, 0, 0, 2, 2] (by decide +kernel) (by decide) (by simp [Fits, fit, vInt, Known, KnownAll, h.1, hl.1, hs])
    (by simp [faultAll, vInt, fault, h.2, hl.2, hs])

/-- no Map-Referral record with signatures (parsing one raises NotImplementedError) -/
def Unsigned : Pkt → Prop
  | .raw _ => True
  | .ipv4 _ p => Unsigned p
  | .ipv6 _ p => Unsigned p
  | .hbh _ _ p => Unsigned p
  | .dest _ _ p => Unsigned p
  | .routing _ _ _ _ p => Unsigned p
  | .fragment _ _ _ _ p => Unsigned p
  | .nonext p => Unsigned p
  | .udp _ p => Unsigned p
  | .data _ p => Unsigned p
  | .ctrl m => match m with
    | .referral m => ∀ r ∈ m.records, r.sigs = 0
    | _ => True
  | .ecm _ p => Unsigned p

/-- a UDP message is in it -/
def HasUdp : Pkt → Bool
  | .raw _ => false
  | .ipv4 _ p => HasUdp p
  | .ipv6 _ p => HasUdp p
  | .hbh _ _ p => HasUdp p
  | .dest _ _ p => HasUdp p
  | .routing _ _ _ _ p => HasUdp p
  | .fragment _ _ _ _ p => HasUdp p
  | .nonext p => HasUdp p
  | .udp _ _ => true
  | .data _ p => HasUdp p
  | .ctrl _ => false
  | .ecm _ p => HasUdp p

theorem fine_ctrl : ∀ m : Ctrl, Unsigned (.ctrl m) → Fine (ctrlVal m)
  | .request m, _ => by
    have h1 := fine_addr m.sourceEid
    have h2 := fine_list addrVal fine_addr m.itrRlocs
    have h3 := fine_list addrVal fine_addr m.eidPrefixes
    have h4 : Fine (optVal (recVal "MapReplyRecord") m.mapReply) := by
      cases m.mapReply with
      | none => exact ⟨trivial, rfl⟩
      | some r => exact fine_rec _ (.inl rfl) r
    exact fine_mk _ ["authoritative", "probe", "smr", "pitr", "smr_invoked", "nonce", "source_eid", "itr_rlocs",
      "eid_prefixes", "map_reply"]
      [.bool m.authoritative, .bool m.probe, .bool m.smr, .bool m.pitr, .bool m.smrInvoked, .str m.nonce,
        addrVal m.sourceEid, .list (m.itrRlocs.map addrVal), .list (m.eidPrefixes.map addrVal),
        optVal (recVal "MapReplyRecord") m.mapReply] [0, 0, 0, 0, 0, 0, 0, 2, 2, 0] (by decide +kernel) (by decide)
      (by simp [Fits, fit, Known, h1.1, h2.1, h3.1, h4.1]) (by simp [faultAll, fault, h1.2, h2.2, h3.2, h4.2])
  | .reply m, _ => by
    have h1 := fine_list _ (fine_rec _ (.inl rfl)) m.records
    exact fine_mk _ ["probe", "enlra_enabled", "security", "nonce", "records"]
      [.bool m.probe, .bool m.enlraEnabled, .bool m.security, .str m.nonce, .list (m.records.map (recVal "MapReplyRecord"))]
      [0, 0, 0, 0, 2] (by decide +kernel) (by decide)
      (by simp [Fits, fit, Known, h1.1]) (by simp [faultAll, fault, h1.2])
  | .register m, _ => by
    have h1 := fine_list _ (fine_rec _ (.inr rfl)) m.records
    exact fine_mk _ ["proxy_map_reply", "for_rtr", "want_map_notify", "nonce", "key_id", "authentication_data", "records",
      "xtr_id", "site_id"]
      [.bool m.proxyMapReply, .bool m.forRtr, .bool m.wantMapNotify, .str m.nonce, vInt m.keyId, .str m.authData,
        .list (m.records.map (recVal "MapRegisterRecord")), vInt m.xtrId, vInt m.siteId]
      [0, 0, 0, 0, 0, 0, 2, 0, 0] (by decide +kernel) (by decide)
      (by simp [Fits, fit, vInt, Known, h1.1]) (by simp [faultAll, vInt, fault, h1.2])
  | .notify m, _ => by
    have h1 := fine_list _ (fine_rec _ (.inr rfl)) m.records
    exact fine_mk _ ["nonce", "key_id", "authentication_data", "records", "xtr_id", "site_id"]
      [.str m.nonce, vInt m.keyId, .str m.authData,
        .list (m.records.map (recVal "MapRegisterRecord")), vInt m.xtrId, vInt m.siteId]
      [0, 0, 0, 2, 0, 0] (by decide +kernel) (by decide)
      (by simp [Fits, fit, vInt, Known, h1.1]) (by simp [faultAll, vInt, fault, h1.2])
  | .referral m, hs => by
    have h1 : KnownAll (m.records.map refVal) ∧ faultAll (m.records.map refVal) = none := by
      have hs' : ∀ r ∈ m.records, r.sigs = 0 := hs
      generalize m.records = l at hs'
      induction l with
      | nil => exact ⟨trivial, rfl⟩
      | cons r l ih =>
        have hr := fine_ref r (hs' r List.mem_cons_self)
        have := ih (fun r hr => hs' r (List.mem_cons_of_mem _ hr))
        simp only [List.map_cons, KnownAll, faultAll, hr.2]
        exact ⟨⟨hr.1, this.1⟩, this.2⟩
    exact fine_mk _ ["nonce", "records"] [.str m.nonce, .list (m.records.map refVal)]
      [0, 2] (by decide +kernel) (by decide)
      (by simp [Fits, fit, Known, h1.1]) (by simp [faultAll, fault, h1.2])
  | .info m, _ => by
    have h1 := fine_addr m.eidPrefix
    have h2 := fine_addr m.reply
    exact fine_mk _ ["is_reply", "nonce", "key_id", "authentication_data", "ttl", "eid_prefix", "reply"]
      [.bool m.isReply, .str m.nonce, vInt m.keyId, .str m.authData, vInt m.ttl, addrVal m.eidPrefix, addrVal m.reply]
      [0, 0, 0, 0, 0, 0, 0] (by decide +kernel) (by decide)
      (by simp [Fits, fit, vInt, Known, h1.1, h2.1]) (by simp [faultAll, vInt, fault, h1.2, h2.2])

theorem fine_opt {α : Type} (f : α → RVal) (hf : ∀ a, Fine (f a)) (o : Option α) : Fine (optVal f o) := by
  cases o with
  | none => exact ⟨trivial, rfl⟩
  | some a => exact hf a

theorem faultAll_mid {l l' : List RVal} {v : RVal} (h : faultAll l = none) (h' : faultAll l' = none) :
    faultAll (l ++ v :: l') = fault v := by
  induction l with
  | nil =>
    simp only [List.nil_append, faultAll, h']
    cases fault v <;> rfl
  | cons a l ih =>
    rw [faultAll] at h
    rw [List.cons_append, faultAll]
    cases ha : fault a with
    | some e => rw [ha] at h; cases h
    | none => rw [ha] at h; exact ih h

/-- every packet is known, and the only fault is a UDP message -/
theorem known_pkt : ∀ p : Pkt, Unsigned p → Known (pktVal p) ∧ fault (pktVal p) = if HasUdp p then some .type else none
  | .raw b, _ => by simp [pktVal, Known, fault, HasUdp]
  | .ctrl m, h => by
    have := fine_ctrl m h
    exact ⟨this.1, by simp [pktVal, HasUdp, this.2]⟩
  | .ipv4 h p, hs => by
    have ih := known_pkt p hs
    have h1 := fine_opt .ip (fun a => ⟨trivial, rfl⟩) h.src
    have h2 := fine_opt .ip (fun a => ⟨trivial, rfl⟩) h.dst
    have hk := known_mk "IPv4Packet" ["next_header", "payload", "tos", "identification", "dont_fragment", "more_fragments",
      "fragment_offset", "ttl", "source", "destination", "options"]
      [vInt h.nextHeader, pktVal p, vInt h.tos, vInt h.ident, .bool h.df, .bool h.mf, vInt h.fragOff, vInt h.ttl,
        optVal .ip h.src, optVal .ip h.dst, .str h.options]
      [3, 0, 0, 0, 0, 0, 0, 0, 0, 0, 0] (by decide +kernel) (by simp [Fits, fit, vInt, Known, ih.1, h1.1, h2.1])
    refine ⟨hk.1, (hk.2.1 (by decide)).trans ?_⟩
    rw [HasUdp, ← ih.2]
    exact faultAll_mid (l := [vInt h.nextHeader]) rfl (by simp [faultAll, vInt, fault, h1.2, h2.2])
  | .ipv6 h p, hs => by
    have ih := known_pkt p hs
    have h1 := fine_opt .ip (fun a => ⟨trivial, rfl⟩) h.src
    have h2 := fine_opt .ip (fun a => ⟨trivial, rfl⟩) h.dst
    have hk := known_mk "IPv6Packet" ["next_header", "payload", "traffic_class", "flow_label", "hop_limit", "source",
      "destination"]
      [vInt h.nextHeader, pktVal p, vInt h.trafficClass, vInt h.flowLabel, vInt h.hopLimit,
        optVal .ip h.src, optVal .ip h.dst]
      [0, 0, 0, 0, 0, 0, 0] (by decide +kernel) (by simp [Fits, fit, vInt, Known, ih.1, h1.1, h2.1])
    refine ⟨hk.1, (hk.2.1 (by decide)).trans ?_⟩
    rw [HasUdp, ← ih.2]
    exact faultAll_mid (l := [vInt h.nextHeader]) rfl (by simp [faultAll, vInt, fault, h1.2, h2.2])
  | .hbh nh o p, hs => by
    have ih := known_pkt p hs
    have hk := known_mk "IPv6HopByHopOptionsHeader" ["next_header", "payload", "options"] [vInt nh, pktVal p, .str o]
      [0, 0, 0] (by decide +kernel) (by simp [Fits, fit, vInt, Known, ih.1])
    refine ⟨hk.1, (hk.2.1 (by decide)).trans ?_⟩
    rw [HasUdp, ← ih.2]
    exact faultAll_mid (l := [vInt nh]) rfl (by simp [faultAll, fault])
  | .dest nh o p, hs => by
    have ih := known_pkt p hs
    have hk := known_mk "IPv6DestinationOptionsHeader" ["next_header", "payload", "options"] [vInt nh, pktVal p, .str o]
      [0, 0, 0] (by decide +kernel) (by simp [Fits, fit, vInt, Known, ih.1])
    refine ⟨hk.1, (hk.2.1 (by decide)).trans ?_⟩
    rw [HasUdp, ← ih.2]
    exact faultAll_mid (l := [vInt nh]) rfl (by simp [faultAll, fault])
  | .routing nh t s d p, hs => by
    have ih := known_pkt p hs
    have hk := known_mk "IPv6RoutingHeader" ["next_header", "payload", "routing_type", "segments_left", "data"]
      [vInt nh, pktVal p, vInt t, vInt s, .str d]
      [0, 0, 0, 0, 0] (by decide +kernel) (by simp [Fits, fit, vInt, Known, ih.1])
    refine ⟨hk.1, (hk.2.1 (by decide)).trans ?_⟩
    rw [HasUdp, ← ih.2]
    exact faultAll_mid (l := [vInt nh]) rfl (by simp [faultAll, vInt, fault])
  | .fragment nh o mf i p, hs => by
    have ih := known_pkt p hs
    have hk := known_mk "IPv6FragmentHeader" ["next_header", "payload", "fragment_offset", "more_fragments", "identification"]
      [vInt nh, pktVal p, vInt o, .bool mf, vInt i]
      [0, 0, 0, 0, 0] (by decide +kernel) (by simp [Fits, fit, vInt, Known, ih.1])
    refine ⟨hk.1, (hk.2.1 (by decide)).trans ?_⟩
    rw [HasUdp, ← ih.2]
    exact faultAll_mid (l := [vInt nh]) rfl (by simp [faultAll, vInt, fault])
  | .nonext p, hs => by
    have ih := known_pkt p hs
    have hk := known_mk "IPv6NoNextHeader" ["next_header", "payload"] [.none, pktVal p]
      [1, 0] (by decide +kernel) (by simp [Fits, fit, Known, ih.1])
    refine ⟨hk.1, (hk.2.1 (by decide)).trans ?_⟩
    rw [HasUdp, ← ih.2]
    exact faultAll_mid (l := [.none]) rfl rfl
  | .udp h p, hs => by
    have ih := known_pkt p hs
    have hk := known_mk "UDPMessage" ["next_header", "payload", "source_port", "destination_port", "checksum"]
      [.none, pktVal p, vInt h.sport, vInt h.dport, vInt h.cksum]
      [1, 0, 0, 0, 0] (by decide +kernel) (by simp [Fits, fit, vInt, Known, ih.1])
    refine ⟨hk.1, (hk.2.2 rfl ?_).trans (by simp [HasUdp])⟩
    have e : faultAll [.none, pktVal p, vInt h.sport, vInt h.dport, vInt h.cksum] = fault (pktVal p) :=
      faultAll_mid (l := [.none]) rfl (by simp [faultAll, vInt, fault])
    rw [e, ih.2]
    cases HasUdp p <;> simp
  | .data h p, hs => by
    have ih := known_pkt p hs
    have h1 := fine_opt .str (fun a => ⟨trivial, rfl⟩) h.nonce
    have h2 := fine_opt vInt fine_int h.srcVersion
    have h3 := fine_opt vInt fine_int h.dstVersion
    have h4 := fine_opt (fun l : List Bool => RVal.list (l.map .bool)) (fun l => by
      have := fine_list RVal.bool (fun b => ⟨trivial, rfl⟩) l
      exact ⟨this.1, this.2⟩) h.lsb
    have h5 := fine_opt vInt fine_int h.iid
    have hk := known_mk "DataPacket" ["echo_nonce_request", "nonce", "source_map_version", "destination_map_version", "lsb",
      "instance_id", "payload"]
      [.bool h.echoNonce, optVal .str h.nonce, optVal vInt h.srcVersion, optVal vInt h.dstVersion,
        optVal (fun l => .list (l.map .bool)) h.lsb, optVal vInt h.iid, pktVal p]
      [0, 0, 0, 0, 0, 0, 0] (by decide +kernel) (by simp [Fits, fit, Known, ih.1, h1.1, h2.1, h3.1, h4.1, h5.1])
    refine ⟨hk.1, (hk.2.1 (by decide)).trans ?_⟩
    rw [HasUdp, ← ih.2]
    exact faultAll_mid (l := [.bool h.echoNonce, optVal .str h.nonce, optVal vInt h.srcVersion, optVal vInt h.dstVersion,
        optVal (fun l => .list (l.map .bool)) h.lsb, optVal vInt h.iid])
      (l' := []) (by simp [faultAll, fault, h1.2, h2.2, h3.2, h4.2, h5.2]) (by simp [faultAll])
  | .ecm h p, hs => by
    have ih := known_pkt p hs
    have hk := known_mk "EncapsulatedControlMessage" ["security", "ddt_originated", "for_rtr", "relayed_by_rtr", "payload"]
      [.bool h.security, .bool h.ddtOriginated, .bool h.forRtr, .bool h.relayedByRtr, pktVal p]
      [0, 0, 0, 0, 0] (by decide +kernel) (by simp [Fits, fit, Known, ih.1])
    refine ⟨hk.1, (hk.2.1 (by decide)).trans ?_⟩
    rw [HasUdp, ← ih.2]
    exact faultAll_mid (l := [.bool h.security, .bool h.ddtOriginated, .bool h.forRtr, .bool h.relayedByRtr])
      (l' := []) (by simp [faultAll, fault]) (by simp [faultAll])

end PyLisp.Rep

namespace PyLisp.Props
open PyLisp.Rep

/-! ### C95: the text that `repr` writes, evaluated -/

theorem good_eval (L : IpLib) (v : RVal) (h : Good L v) : ∃ r, evalText L (reprOf L v) = some r ∧ Outcome v r := by
  obtain ⟨r, hr, ho⟩ := h
  refine ⟨r, ?_, ho⟩
  have := hr ((reprOf L v).length + 1) [] (Nat.lt_succ_self _) (.inl rfl)
  rw [List.append_nil] at this
  simp [evalText, this, skip]

/-- C95: For every value made of numbers, booleans, None, byte strings, IP addresses and networks, lists and objects of
the packet, message, record and LCAF classes, nested to any depth, with dictionaries in any order and any private
attributes: if there is no UDP message and no automatic address in it, evaluating the text that `repr` writes gives a
value with the same class, and the same public attributes, throughout. -/
theorem repr_value_back (L : IpLib) (v : RVal) (hk : Known v) (hf : fault v = none) :
    ∃ v', evalText L (reprOf L v) = some (.ok v') ∧ Same v v' := by
  obtain ⟨r, hr, ho⟩ := good_eval L v (good L v hk)
  simp only [Outcome, hf] at ho
  obtain ⟨v', rfl, hs⟩ := ho
  exact ⟨v', hr, hs⟩

/-- C95: If there is one, evaluating raises the exception of the first of them from the left (TypeError for a UDP
message, NameError for an automatic address). -/
theorem repr_value_fault (L : IpLib) (v : RVal) (hk : Known v) (e : EvalErr) (hf : fault v = some e) :
    evalText L (reprOf L v) = some (.error e) := by
  obtain ⟨r, hr, ho⟩ := good_eval L v (good L v hk)
  simp only [Outcome, hf] at ho
  rw [hr, ho]

/-- the values of a packet with dictionaries in any order and any private attributes are of the known kinds -/
theorem known_like {a v : RVal} (ha : Known a) (hv : Same a v) (hp : Proper v) :
    Known v ∧ (fault a = none ↔ fault v = none) :=
  known_same hv ha (known_proper a ha) hp

theorem back_like (L : IpLib) {a v : RVal} (ha : Known a) (hf : fault a = none) (hv : Same a v) (hp : Proper v) :
    ∃ v', evalText L (reprOf L v) = some (.ok v') ∧ Same a v' := by
  obtain ⟨hk, hn⟩ := known_like ha hv hp
  obtain ⟨v', h1, h2⟩ := repr_value_back L v hk (hn.mp hf)
  exact ⟨v', h1, hv.trans h2⟩

/-- C95: `repr` of a packet (IPv4, IPv6 and its extension headers, LISP data and control messages, in any nesting) that
has no UDP message in it and no signatures: evaluated, it gives a packet with the same fields, whatever order the
attributes have in the dictionaries and whatever private attributes there are. -/
theorem repr_evaluates (L : IpLib) (p : Pkt) (hs : Unsigned p) (hu : HasUdp p = false) (v : RVal)
    (hv : Same (pktVal p) v) (hp : Proper v) :
    ∃ v', evalText L (reprOf L v) = some (.ok v') ∧ Same (pktVal p) v' := by
  obtain ⟨hk, hf⟩ := known_pkt p hs
  exact back_like L hk (by simp [hf, hu]) hv hp

/-- C95: `repr` of a packet with a UDP message anywhere inside it, so of every encapsulated control message that a node
sends: evaluating it raises TypeError. -/
theorem repr_of_udp_fails (L : IpLib) (p : Pkt) (hs : Unsigned p) (hu : HasUdp p = true) (v : RVal)
    (hv : Same (pktVal p) v) (hp : Proper v) : evalText L (reprOf L v) = some (.error .type) := by
  obtain ⟨hk, hf⟩ := known_pkt p hs
  obtain ⟨hk', hn⟩ := known_like hk hv hp
  rw [if_pos hu] at hf
  rcases fault_same hv hp with h | h
  · rw [hn.mpr h] at hf; cases hf
  · exact repr_value_fault L v hk' _ h

/-- C95: the same for a packet with its attributes in the order of the constructors and no private attributes -/
theorem repr_packet_back (L : IpLib) (p : Pkt) (hs : Unsigned p) (hu : HasUdp p = false) :
    ∃ v', evalText L (reprOf L (pktVal p)) = some (.ok v') ∧ Same (pktVal p) v' := by
  obtain ⟨hk, hf⟩ := known_pkt p hs
  exact repr_value_back L _ hk (by simp [hf, hu])

/-- C95: and with a UDP message -/
theorem repr_packet_udp_fails (L : IpLib) (p : Pkt) (hs : Unsigned p) (hu : HasUdp p = true) :
    evalText L (reprOf L (pktVal p)) = some (.error .type) := by
  obtain ⟨hk, hf⟩ := known_pkt p hs
  exact repr_value_fault L _ hk _ (by simp [hf, hu])

/-- C95: `repr` of an address of any kind (none, IP address, network, LCAF nested to any depth) evaluates back to it. -/
theorem repr_address_back (L : IpLib) (a : Addr) (v : RVal) (hv : Same (addrVal a) v) (hp : Proper v) :
    ∃ v', evalText L (reprOf L v) = some (.ok v') ∧ Same (addrVal a) v' :=
  back_like L (fine_addr a).1 (fine_addr a).2 hv hp

/-- C95: `repr` of a locator record evaluates back to it. -/
theorem repr_locator_back (L : IpLib) (l : Locator) (v : RVal) (hv : Same (locVal l) v) (hp : Proper v) :
    ∃ v', evalText L (reprOf L v) = some (.ok v') ∧ Same (locVal l) v' :=
  back_like L (fine_loc l).1 (fine_loc l).2 hv hp

/-- C95: `repr` of a Map-Reply or Map-Register record evaluates back to it. -/
theorem repr_record_back (L : IpLib) (c : String) (hc : c = "MapReplyRecord" ∨ c = "MapRegisterRecord") (r : Record)
    (v : RVal) (hv : Same (recVal c r) v) (hp : Proper v) :
    ∃ v', evalText L (reprOf L v) = some (.ok v') ∧ Same (recVal c r) v' :=
  back_like L (fine_rec c hc r).1 (fine_rec c hc r).2 hv hp

/-- C95: `repr` of a Map-Referral record without signatures evaluates back to it. -/
theorem repr_referral_record_back (L : IpLib) (r : RefRecord) (hs : r.sigs = 0) (v : RVal) (hv : Same (refVal r) v)
    (hp : Proper v) : ∃ v', evalText L (reprOf L v) = some (.ok v') ∧ Same (refVal r) v' :=
  back_like L (fine_ref r hs).1 (fine_ref r hs).2 hv hp

/-- C95: two values with the same text are equal in all public attributes (so packets that look the same in a log are
the same, up to reserved bits) -/
theorem repr_tells_apart (L : IpLib) (v w : RVal) (hv : Known v) (hw : Known w) (fv : fault v = none)
    (fw : fault w = none) (h : reprOf L v = reprOf L w) : Same v w := by
  obtain ⟨v', h1, h2⟩ := repr_value_back L v hv fv
  obtain ⟨w', h3, h4⟩ := repr_value_back L w hw fw
  rw [h, h3] at h1
  injection h1 with h1
  injection h1 with h1
  subst h1
  exact h2.trans h4.symm

/-- C95: an automatic address is written without quotes around the name of its interface: evaluating it raises NameError -/
theorem repr_of_auto_fails (L : IpLib) (ver : Ver) (i : String) (hi : IfName i) :
    evalText L (reprOf L (.auto ver i)) = some (.error .name) :=
  repr_value_fault L (.auto ver i) (by simpa [Known] using hi) _ (by simp [fault])

theorem reprAll_map (L : IpLib) : ∀ vs, reprAll L vs = vs.map (reprOf L)
  | [] => by rw [reprAll, List.map_nil]
  | v :: vs => by rw [reprAll, List.map_cons, reprAll_map L vs]

/-- C95: The text of an object depends on its class and its public attributes only: objects that differ in private
attributes (the reserved bits of a message) have the same text, so reserved bits are not in it. -/
theorem repr_hides_private (L : IpLib) (c : String) (ks ks' : List String) (vs vs' : List RVal)
    (h : (ks.zip vs).filter (fun p => !isPrivate p.1) = (ks'.zip vs').filter (fun p => !isPrivate p.1)) :
    reprOf L (.obj c ks vs) = reprOf L (.obj c ks' vs') := by
  have key : ∀ (ks : List String) (vs : List RVal),
      ((ks.zip (reprAll L vs)).filter (fun p => !isPrivate p.1 && !([] : List String).contains p.1)) =
        ((ks.zip vs).filter (fun p => !isPrivate p.1)).map (fun p => (p.1, reprOf L p.2)) := by
    intro ks vs
    rw [reprAll_map, List.zip_map_right, List.filter_map]
    have : (fun p : String × List Char => !isPrivate p.1 && !([] : List String).contains p.1) ∘
        (Prod.map id (reprOf L)) = fun p => !isPrivate p.1 := by
      funext p; simp
    rw [this]
    rfl
  rw [reprOf, reprOf, represent, represent, key, key, h]

/-! ### cases -/

theorem digits_chars (n : Nat) : ∀ c ∈ digits n, isDig c = true := digitsF_dig n n

theorem dig_mem {c : Char} (h : isDig c = true) : c ∈ "0123456789abcdef.:/".toList := by
  simp only [isDig, Bool.and_eq_true, decide_eq_true_eq] at h
  have : c = Char.ofNat c.toNat := (Char.ofNat_toNat c).symm
  rw [this]
  have hk : ∀ k : Fin 10, Char.ofNat (48 + k.val) ∈ "0123456789abcdef.:/".toList := by decide
  have := hk ⟨c.toNat - 48, by omega⟩
  rwa [show 48 + (c.toNat - 48) = c.toNat by omega] at this

/-- an ipaddress library that writes decimal numbers -/
def demoLib : IpLib where
  addrText a := digits a.val
  netText n := digits n.base ++ '/' :: digits n.plen
  parseAddr v t := if h : valueOf t < 2 ^ v.width then some ⟨v, valueOf t, h⟩ else none
  parseNet v t :=
    let b := valueOf (t.takeWhile isDig)
    let l := valueOf ((t.dropWhile isDig).drop 1)
    if h : l ≤ v.width ∧ b < 2 ^ v.width ∧ b % 2 ^ (v.width - l) = 0 then some ⟨v, b, l, h.1, h.2.1, h.2.2⟩ else none
  addr_back a := by
    have : valueOf (digits a.val) = a.val := valueOf_digitsF _ _ (Nat.le_refl _)
    rw [dif_pos (by rw [this]; exact a.lt)]
    cases a; simp only [this]
  net_back n := by
    have hr := takeWhile_run (p := isDig) (digits n.base) ('/' :: digits n.plen) (digits_chars _)
      (by rintro c s' e; obtain ⟨rfl, rfl⟩ := List.cons.inj e; rfl)
    have h1 : valueOf (digits n.base) = n.base := valueOf_digitsF _ _ (Nat.le_refl _)
    have h2 : valueOf (digits n.plen) = n.plen := valueOf_digitsF _ _ (Nat.le_refl _)
    simp only [hr.1, hr.2, List.drop_succ_cons, List.drop_zero, h1, h2]
    rw [dif_pos ⟨n.plen_le, n.base_lt, n.aligned⟩]
  addr_chars a c hc := dig_mem (digits_chars _ c hc)
  net_chars n c hc := by
    rcases List.mem_append.mp hc with h | h
    · exact dig_mem (digits_chars _ c h)
    · rcases List.mem_cons.mp h with rfl | h
      · decide
      · exact dig_mem (digits_chars _ c h)

/-- a text -/
def showText (v : RVal) : String := String.ofList (reprOf demoLib v)

-- the texts that Python writes
example : showText (.str [0x61, 0x27, 0x0a, 0xff, 0x5c]) = "\"a'\\n\\xff\\\\\"" := by decide +kernel
example : showText (.str [0x27, 0x22]) = "'\\'\"'" := by decide +kernel
example : showText (.str [0x00, 0x1f, 0x20, 0x7e, 0x7f, 0x22, 0x09, 0x0d]) = "'\\x00\\x1f ~\\x7f\"\\t\\r'" := by decide +kernel
example : showText (.list [.int 0 false, .int 10 false, .bool true, .list []]) = "[0, 10, True, []]" := by decide +kernel
example : showText (.int (-12) true) = "-12L" := by decide +kernel
example : showText (addrVal (.inst 3 (.asn 7 .none) 32)) =
    "LCAFInstanceAddress(instance_id=3, address=LCAFAutonomousSystemAddress(asn=7, address=None), iid_mask_len=32)" := by
  decide +kernel
example : showText (.auto .v4 "vlan2") = "AutoIPv4Address(vlan2)" := by decide +kernel
-- private attributes are not shown
example : showText (.obj "LCAFAutonomousSystemAddress" ["_reserved1", "address", "asn"] [.int 5 false, .none, .int 7 false]) =
    "LCAFAutonomousSystemAddress(address=None, asn=7)" := by decide +kernel

/-- an ECM as a node sends it: IPv4, UDP, Map-Request -/
def demoEcm : Pkt := .ecm { } (.ipv4 { ttl := 64, nextHeader := 17 } (.udp { sport := 4342, dport := 4342 } (.ctrl (.request { }))))

-- hypotheses of the theorems
example : Unsigned demoEcm ∧ HasUdp demoEcm = true := ⟨by simp [demoEcm, Unsigned], rfl⟩
example : evalText demoLib (reprOf demoLib (pktVal demoEcm)) = some (.error .type) :=
  repr_packet_udp_fails demoLib demoEcm (by simp [demoEcm, Unsigned]) rfl

/-- an autonomous system address with its dictionary in another order, a long and a private attribute -/
def demoAs : RVal := .obj "LCAFAutonomousSystemAddress" ["_reserved1", "address", "asn"] [.other, .none, .int 7 true]

theorem demoAs_same : Same (addrVal (.asn 7 .none)) demoAs := by
  have e1 : ∀ k, attrOf ["asn", "address"] [vInt 7, .none] k =
      if k = "asn" then some (vInt 7) else if k = "address" then some .none else none := by
    intro k; simp only [attrOf, List.zip_cons_cons, List.zip_nil_right, List.lookup]
    by_cases h1 : k = "asn"
    · simp [h1]
    · by_cases h2 : k = "address"
      · simp [h2]
      · simp [beq_false_of_ne h1, beq_false_of_ne h2, h1, h2]
  have e2 : ∀ k, isPrivate k = false → attrOf ["_reserved1", "address", "asn"] [.other, .none, .int 7 true] k =
      if k = "asn" then some (.int 7 true) else if k = "address" then some .none else none := by
    intro k hk
    have h0 : k ≠ "_reserved1" := by rintro rfl; exact absurd hk (by decide)
    simp only [attrOf, List.zip_cons_cons, List.zip_nil_right, List.lookup]
    by_cases h1 : k = "asn"
    · simp [h1]
    · by_cases h2 : k = "address"
      · simp [h2]
      · simp [beq_false_of_ne h0, beq_false_of_ne h1, beq_false_of_ne h2, h1, h2]
  rw [addrVal, addrVal]
  refine .obj _ _ _ _ _ (fun k hk => ?_) (fun k x y hk hx hy => ?_)
  · show (attrOf ["asn", "address"] [vInt 7, .none] k).isSome = true ↔ _
    rw [e1 k, e2 k hk]
    by_cases h1 : k = "asn"
    · simp [h1]
    · by_cases h2 : k = "address" <;> simp [h1, h2]
  · change attrOf ["asn", "address"] [vInt 7, .none] k = some x at hx
    rw [e1 k] at hx
    rw [e2 k hk] at hy
    by_cases h1 : k = "asn"
    · simp only [h1, if_true] at hx hy
      cases hx; cases hy; exact .int _ _ _
    · by_cases h2 : k = "address"
      · rw [if_neg h1, if_pos h2] at hx hy
        cases hx; cases hy; exact .none
      · rw [if_neg h1, if_neg h2] at hx; cases hx

example : ∃ v', evalText demoLib (reprOf demoLib demoAs) = some (.ok v') ∧ Same (addrVal (.asn 7 .none)) v' :=
  repr_address_back demoLib _ _ demoAs_same (by simp [demoAs, Proper, ProperPub])
-- it differs from another one
example : ¬ Same (addrVal (.asn 7 .none)) (addrVal (.asn 8 .none)) := by
  intro h
  simp only [addrVal, mkObj, List.map_cons, List.map_nil] at h
  cases h with
  | obj _ _ _ _ _ h1 h2 =>
    have := h2 "asn" (vInt 7) (vInt 8) (by decide) (by simp [attrOf]) (by simp [attrOf])
    cases this
example : IfName "vlan2" :=
  ⟨⟨'v', ['l', 'a', 'n', '2'], by decide, by decide⟩, by decide, by decide, by decide, by decide⟩
-- a Map-Request in an IPv6 packet behind a hop-by-hop header
example : HasUdp (.ipv6 { } (.hbh 17 [1, 4, 0, 0] (.ctrl (.request { })))) = false := rfl

/-- the tests of the evaluator: texts that are no expressions, unknown names and arguments -/
def evalStr (s : String) : Option (Except EvalErr RVal) := evalText demoLib s.toList

/-- what an evaluation gave: `ok`, or the exception, or a syntax error -/
def evalKind (s : String) : Option (Option EvalErr) :=
  (evalStr s).map (fun r => match r with | .ok _ => none | .error e => some e)

example : evalKind "UDPMessage(next_header=None, source_port=1)" = some (some .type) := by decide +kernel
example : evalKind "LocatorRecord(priority=1" = none := by decide +kernel
example : evalKind "LocatorRecord(prio=1)" = some (some .type) := by decide +kernel
example : evalKind "LocatorRecord(1, priority=1)" = some (some .type) := by decide +kernel
example : evalKind "NoSuchRecord()" = some (some .name) := by decide +kernel
example : evalKind "LocatorRecord( 1,2 , weight=3)" = some (some .type) := by decide +kernel
example : evalKind "LocatorRecord( 1,2 , m_weight=-3,)" = some none := by decide +kernel
example : evalKind "IPv4Packet(next_header=17, protocol=6)" = some (some .value) := by decide +kernel
example : evalKind "'abc" = none := by decide +kernel
example : evalKind "AutoIPv4Address(vlan2)" = some (some .name) := by decide +kernel

end PyLisp.Props

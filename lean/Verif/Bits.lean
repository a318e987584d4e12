/-
Bit strings, bit-stream readers and writers: the part of the `bitstring` library that pylisp uses.
Library behaviour assumed here (see DESIGN.md): bits are stored most significant first, reading
past the end raises `ReadError`, `uint:n=v` raises `ValueError` (`CreationError`) unless
`0 ≤ v < 2^n`, `int:n=v` unless `-2^(n-1) ≤ v < 2^(n-1)`.
-/
namespace PyLisp

/-- The exception classes that the modelled code can raise.
`value` is `ValueError` (bitstring's `CreationError`/`InterpretError` are subclasses of it),
`read` is bitstring's `ReadError`, `fuel` never happens (proved) and only exists because parsers
are defined by recursion on a depth counter. -/
inductive Err
  | value | read | notImpl | type | attr | key | index | msAuth | msScope | notMine
  | moreSpecifics | noConfig | fuel | assertion
  deriving DecidableEq, Repr

/-- the contents of a `BitArray`/`ConstBitStream` -/
abbrev Bits := List Bool
/-- one character of a Python 2 `str` -/
abbrev Byte := BitVec 8
/-- a Python 2 `str` -/
abbrev Bytes := List Byte

/-- `n` bits of `v`, most significant first (bitstring `uint:n`). -/
def natToBits : Nat → Nat → Bits
  | 0, _ => []
  | n + 1, v => v.testBit n :: natToBits n v

/-- value of a bit string read as unsigned integer (bitstring `.uint`). -/
def bitsToNat : Bits → Nat
  | [] => 0
  | b :: bs => b.toNat * 2 ^ bs.length + bitsToNat bs

/-- the bits of a byte string (`ConstBitStream(bytes=...)`). -/
def bytesToBits : Bytes → Bits
  | [] => []
  | b :: bs => natToBits 8 b.toNat ++ bytesToBits bs

/-- `.bytes` of a bit string: raises `InterpretError` when the length is not a multiple of 8. -/
def bitsToBytes : Bits → Except Err Bytes
  | [] => .ok []
  | b0 :: b1 :: b2 :: b3 :: b4 :: b5 :: b6 :: b7 :: rest =>
    match bitsToBytes rest with
    | .ok bs => .ok (BitVec.ofNat 8 (bitsToNat [b0, b1, b2, b3, b4, b5, b6, b7]) :: bs)
    | .error e => .error e
  | _ => .error .value

/-! ### Writers -/

/-- `BitArray('uint:n=v')` -/
def encUint (n : Nat) (v : Int) : Except Err Bits :=
  if 0 ≤ v ∧ v < 2 ^ n then .ok (natToBits n v.toNat) else .error .value

/-- `BitArray('int:n=v')` (two's complement) -/
def encInt (n : Nat) (v : Int) : Except Err Bits :=
  if -(2 ^ (n - 1)) ≤ v ∧ v < 2 ^ (n - 1) then .ok (natToBits n (v % 2 ^ n).toNat)
  else .error .value

/-- `BitArray(n)`: n zero bits -/
def zeros (n : Nat) : Bits := List.replicate n false

/-! ### Readers: consume bits from the front of the stream or raise. -/

/-- a read from a `ConstBitStream`: a value and what is left of the stream, or an exception -/
def Rd (α : Type) := Bits → Except Err (α × Bits)

namespace Rd
/-- nothing read -/
def pure (a : α) : Rd α := fun s => .ok (a, s)
/-- one read after another; an exception ends it -/
def bind (x : Rd α) (f : α → Rd β) : Rd β := fun s =>
  match x s with
  | .ok (a, s') => f a s'
  | .error e => .error e
instance : Monad Rd where
  pure := Rd.pure
  bind := Rd.bind
/-- raise an exception -/
def fail (e : Err) : Rd α := fun _ => .error e
/-- a step that does not touch the stream but may raise -/
def lift (r : Except Err α) : Rd α := fun s =>
  match r with
  | .ok a => .ok (a, s)
  | .error e => .error e
end Rd

/-- `bitstream.read(n)` -/
def readBits (n : Nat) : Rd Bits := fun s =>
  if n ≤ s.length then .ok (s.take n, s.drop n) else .error .read

/-- `bitstream.read('uint:n')` -/
def readUint (n : Nat) : Rd Nat := fun s =>
  if n ≤ s.length then .ok (bitsToNat (s.take n), s.drop n) else .error .read

/-- `bitstream.read('bool')` -/
def readBool : Rd Bool := fun s =>
  match s with
  | [] => .error .read
  | b :: r => .ok (b, r)

/-- two's complement value of an `n`-bit string whose unsigned value is `u` -/
def toSigned (n : Nat) (u : Nat) : Int :=
  if 2 * u < 2 ^ n then (u : Int) else (u : Int) - 2 ^ n

/-- `bitstream.read('int:n')` -/
def readInt (n : Nat) : Rd Int := fun s =>
  if n ≤ s.length then .ok (toSigned n (bitsToNat (s.take n)), s.drop n) else .error .read

/-- `bitstream.read('bytes:n')` -/
def readBytes (n : Nat) : Rd Bytes := fun s =>
  if 8 * n ≤ s.length then
    match bitsToBytes (s.take (8 * n)) with
    | .ok bs => .ok (bs, s.drop (8 * n))
    | .error e => .error e
  else .error .read

/-! ### Basic lemmas -/

@[simp] theorem natToBits_length (n v : Nat) : (natToBits n v).length = n := by
  induction n with
  | zero => rfl
  | succ n ih => simp [natToBits, ih]

theorem bitsToNat_lt (bs : Bits) : bitsToNat bs < 2 ^ bs.length := by
  induction bs with
  | nil => simp [bitsToNat]
  | cons b bs ih =>
    simp only [bitsToNat, List.length_cons, Nat.pow_succ]
    cases b <;> simp <;> omega

theorem bitsToNat_natToBits (n v : Nat) : bitsToNat (natToBits n v) = v % 2 ^ n := by
  induction n with
  | zero => simp [natToBits, bitsToNat, Nat.mod_one]
  | succ n ih =>
    simp only [natToBits, bitsToNat, natToBits_length, ih]
    rw [Nat.mod_pow_succ, Nat.toNat_testBit]
    rw [Nat.mul_comm (2 ^ n), Nat.add_comm]

theorem natToBits_congr {n v w : Nat} (h : v % 2 ^ n = w % 2 ^ n) :
    natToBits n v = natToBits n w := by
  induction n with
  | zero => rfl
  | succ n ih =>
    have h1 : v % 2 ^ n = w % 2 ^ n := by
      have := congrArg (· % 2 ^ n) h
      simpa [Nat.mod_mod_of_dvd _ (Nat.pow_dvd_pow 2 (Nat.le_succ n))] using this
    have h2 : v.testBit n = w.testBit n := by
      have := congrArg (fun x => Nat.testBit x n) h
      simpa [Nat.testBit_mod_two_pow] using this
    simp [natToBits, h2, ih h1]

theorem natToBits_bitsToNat (bs : Bits) : natToBits bs.length (bitsToNat bs) = bs := by
  induction bs with
  | nil => rfl
  | cons b bs ih =>
    have hlt := bitsToNat_lt bs
    simp only [List.length_cons, natToBits, bitsToNat]
    congr 1
    · cases b
      · simp [Nat.testBit_lt_two_pow hlt]
      · simp only [Bool.toNat_true, Nat.one_mul]
        rw [Nat.testBit_two_pow_add_eq]
        simp [Nat.testBit_lt_two_pow hlt]
    · rw [natToBits_congr (w := bitsToNat bs), ih]
      simp [Nat.add_mod, Nat.mul_mod_left]

theorem natToBits_inj {n v w : Nat} (hv : v < 2 ^ n) (hw : w < 2 ^ n)
    (h : natToBits n v = natToBits n w) : v = w := by
  have := congrArg bitsToNat h
  simpa [bitsToNat_natToBits, Nat.mod_eq_of_lt hv, Nat.mod_eq_of_lt hw] using this

theorem bitsToNat_append (a b : Bits) :
    bitsToNat (a ++ b) = bitsToNat a * 2 ^ b.length + bitsToNat b := by
  induction a with
  | nil => simp [bitsToNat]
  | cons x a ih =>
    simp only [List.cons_append, bitsToNat, ih, List.length_append, Nat.pow_add]
    rw [Nat.add_mul, Nat.mul_assoc]
    omega

theorem natToBits_append (m n v : Nat) :
    natToBits (m + n) v = natToBits m (v / 2 ^ n) ++ natToBits n v := by
  induction m with
  | zero => simp [natToBits]
  | succ m ih =>
    rw [Nat.succ_add]
    simp only [natToBits, ih, List.cons_append]
    congr 1
    rw [Nat.testBit_div_two_pow, Nat.add_comm]

@[simp] theorem bitsToNat_replicate_false (n : Nat) : bitsToNat (List.replicate n false) = 0 := by
  induction n with
  | zero => rfl
  | succ n ih => simp [List.replicate_succ, bitsToNat, ih]

theorem natToBits_zero (n : Nat) : natToBits n 0 = zeros n := by
  induction n with
  | zero => rfl
  | succ n ih => simp [natToBits, ih, zeros, List.replicate_succ]

@[simp] theorem zeros_length (n : Nat) : (zeros n).length = n := by simp [zeros]

@[simp] theorem bytesToBits_length (bs : Bytes) : (bytesToBits bs).length = 8 * bs.length := by
  induction bs with
  | nil => rfl
  | cons b bs ih => simp [bytesToBits, ih]; omega

theorem bytesToBits_append (a b : Bytes) :
    bytesToBits (a ++ b) = bytesToBits a ++ bytesToBits b := by
  induction a with
  | nil => rfl
  | cons x a ih => simp [bytesToBits, ih]

@[simp] theorem bitsToBytes_bytesToBits (bs : Bytes) : bitsToBytes (bytesToBits bs) = .ok bs := by
  induction bs with
  | nil => rfl
  | cons b bs ih =>
    have h : ∀ r, natToBits 8 b.toNat ++ r =
      b.toNat.testBit 7 :: b.toNat.testBit 6 :: b.toNat.testBit 5 :: b.toNat.testBit 4 ::
      b.toNat.testBit 3 :: b.toNat.testBit 2 :: b.toNat.testBit 1 :: b.toNat.testBit 0 :: r := by
      intro r; rfl
    rw [bytesToBits, h, bitsToBytes, ih]
    have h2 : [b.toNat.testBit 7, b.toNat.testBit 6, b.toNat.testBit 5, b.toNat.testBit 4,
      b.toNat.testBit 3, b.toNat.testBit 2, b.toNat.testBit 1, b.toNat.testBit 0]
      = natToBits 8 b.toNat := rfl
    rw [h2, bitsToNat_natToBits]
    have := b.isLt
    rw [Nat.mod_eq_of_lt this]; simp

/-- `.bytes` followed by `bytes=` gives the same bits back. -/
theorem bytesToBits_of_bitsToBytes {b : Bits} {bs : Bytes} (h : bitsToBytes b = .ok bs) :
    bytesToBits bs = b := by
  induction b using bitsToBytes.induct generalizing bs with
  | case1 => simp [bitsToBytes] at h; subst h; rfl
  | case2 b0 b1 b2 b3 b4 b5 b6 b7 rest r hr ih =>
    simp [bitsToBytes, hr] at h
    subst h
    simp only [bytesToBits]
    rw [ih hr]
    have h1 := natToBits_bitsToNat [b0, b1, b2, b3, b4, b5, b6, b7]
    have h2 := bitsToNat_lt [b0, b1, b2, b3, b4, b5, b6, b7]
    simp only [List.length_cons, List.length_nil] at h1 h2
    rw [BitVec.toNat_ofNat, Nat.mod_eq_of_lt h2]
    simp only [Nat.zero_add, Nat.reduceAdd] at h1
    rw [h1]; rfl
  | case3 b0 b1 b2 b3 b4 b5 b6 b7 rest e hr ih => simp [bitsToBytes, hr] at h
  | case4 b h1 h2 =>
    exfalso
    unfold bitsToBytes at h
    split at h
    · exact h1 rfl
    · exact h2 _ _ _ _ _ _ _ _ _ rfl
    · cases h

theorem bitsToBytes_ok_of_length {b : Bits} {k : Nat} (h : b.length = 8 * k) :
    ∃ bs, bitsToBytes b = .ok bs ∧ bs.length = k := by
  induction k generalizing b with
  | zero =>
    have : b = [] := List.length_eq_zero_iff.mp (by omega)
    subst this; exact ⟨[], rfl, rfl⟩
  | succ k ih =>
    match b, h with
    | b0 :: b1 :: b2 :: b3 :: b4 :: b5 :: b6 :: b7 :: rest, h =>
      obtain ⟨bs, hbs, hl⟩ := @ih rest (by simp at h; omega)
      refine ⟨BitVec.ofNat 8 (bitsToNat [b0, b1, b2, b3, b4, b5, b6, b7]) :: bs, ?_, by simp [hl]⟩
      · simp only [bitsToBytes, hbs]
    | [], h | [_], h | [_, _], h | [_, _, _], h | [_, _, _, _], h | [_, _, _, _, _], h
    | [_, _, _, _, _, _], h | [_, _, _, _, _, _, _], h => simp at h <;> omega

theorem bitsToBytes_length {b : Bits} {bs : Bytes} (h : bitsToBytes b = .ok bs) :
    b.length = 8 * bs.length := by
  rw [← bytesToBits_of_bitsToBytes h, bytesToBits_length]

theorem bytesToBits_inj {a b : Bytes} (h : bytesToBits a = bytesToBits b) : a = b := by
  have := congrArg bitsToBytes h
  simpa using this

/-! ### Exceptions -/

instance [DecidableEq α] : DecidableEq (Except Err α) := fun x y =>
  match x, y with
  | .ok a, .ok b => if h : a = b then isTrue (by rw [h]) else isFalse (by simpa using h)
  | .error a, .error b => if h : a = b then isTrue (by rw [h]) else isFalse (by simpa using h)
  | .ok _, .error _ => isFalse (by simp)
  | .error _, .ok _ => isFalse (by simp)

/-- did the call succeed? -/
def isOk : Except Err α → Bool
  | .ok _ => true
  | .error _ => false

theorem isOk_iff {x : Except Err α} : isOk x = true ↔ ∃ a, x = .ok a := by
  cases x <;> simp [isOk]


theorem exBind_ok {x : Except Err α} {f : α → Except Err β} {b : β} :
    (x >>= f) = .ok b ↔ ∃ a, x = .ok a ∧ f a = .ok b := by
  cases x with
  | ok a => simp [bind, Except.bind]
  | error e => simp [bind, Except.bind]

@[simp] theorem exBind_okl (a : α) (f : α → Except Err β) : ((.ok a : Except Err α) >>= f) = f a := rfl
@[simp] theorem exBind_errl (e : Err) (f : α → Except Err β) :
    ((.error e : Except Err α) >>= f) = .error e := rfl
@[simp] theorem exPure (a : α) : (pure a : Except Err α) = .ok a := rfl

theorem exIte_ok {c : Prop} [Decidable c] {x : Except Err α} {e : Err} {b : α} :
    (if c then x else .error e) = .ok b ↔ c ∧ x = .ok b := by
  split <;> simp_all

theorem exIteErr_ok {c : Prop} [Decidable c] {x : Except Err α} {e : Err} {b : α} :
    (if c then .error e else x) = .ok b ↔ ¬c ∧ x = .ok b := by
  split <;> simp_all

/-! ### Writer lemmas -/

theorem encUint_ok {n : Nat} {v : Int} {b : Bits} (h : encUint n v = .ok b) :
    0 ≤ v ∧ v < 2 ^ n ∧ b = natToBits n v.toNat := by
  unfold encUint at h
  split at h
  · rename_i hv; cases h; exact ⟨hv.1, hv.2, rfl⟩
  · cases h

theorem encUint_eq_ok {n : Nat} {v : Int} (h0 : 0 ≤ v) (h1 : v < 2 ^ n) :
    encUint n v = .ok (natToBits n v.toNat) := by
  simp [encUint, h0, h1]

theorem encUint_iff {n : Nat} {v : Int} {b : Bits} :
    encUint n v = .ok b ↔ 0 ≤ v ∧ v < 2 ^ n ∧ b = natToBits n v.toNat := by
  constructor
  · exact encUint_ok
  · rintro ⟨h0, h1, rfl⟩; exact encUint_eq_ok h0 h1

theorem encInt_iff {n : Nat} {v : Int} {b : Bits} :
    encInt n v = .ok b ↔
      -(2 ^ (n - 1)) ≤ v ∧ v < 2 ^ (n - 1) ∧ b = natToBits n (v % 2 ^ n).toNat := by
  unfold encInt
  split
  · rename_i h; simp [h]; exact eq_comm
  · rename_i h; simp; intro h1 h2; exact absurd ⟨h1, h2⟩ h

/-! ### Reader lemmas -/

@[simp] theorem Rd.pure_apply (a : α) (s : Bits) : (Pure.pure a : Rd α) s = .ok (a, s) := rfl
@[simp] theorem Rd.bind_apply (x : Rd α) (f : α → Rd β) (s : Bits) :
    (x >>= f) s = match x s with | .ok (a, s') => f a s' | .error e => .error e := rfl
@[simp] theorem Rd.fail_apply (e : Err) (s : Bits) : (Rd.fail e : Rd α) s = .error e := rfl
@[simp] theorem Rd.lift_ok (a : α) (s : Bits) : Rd.lift (.ok a) s = .ok (a, s) := rfl
@[simp] theorem Rd.lift_error (e : Err) (s : Bits) :
    (Rd.lift (.error e) : Rd α) s = .error e := rfl

theorem readBits_append (a t : Bits) : readBits a.length (a ++ t) = .ok (a, t) := by
  simp [readBits]

theorem readBits_app {n : Nat} {a t : Bits} (h : a.length = n) :
    readBits n (a ++ t) = .ok (a, t) := by
  subst h; exact readBits_append a t

theorem readUint_app' {n : Nat} {a t : Bits} (h : a.length = n) :
    readUint n (a ++ t) = .ok (bitsToNat a, t) := by
  subst h; simp [readUint]

theorem readUint_app {n v : Nat} (h : v < 2 ^ n) (t : Bits) :
    readUint n (natToBits n v ++ t) = .ok (v, t) := by
  rw [readUint_app' (natToBits_length n v), bitsToNat_natToBits, Nat.mod_eq_of_lt h]

theorem toSigned_emod {n : Nat} (hn : 0 < n) {v : Int} (h0 : -(2 ^ (n - 1)) ≤ v)
    (h1 : v < 2 ^ (n - 1)) : toSigned n ((v % 2 ^ n).toNat) = v := by
  obtain ⟨m, rfl⟩ : ∃ m, n = m + 1 := ⟨n - 1, by omega⟩
  simp only [Nat.add_sub_cancel] at h0 h1
  have hp : (0 : Int) < 2 ^ m := Int.pow_pos (by decide)
  have hp2 : (2 : Int) ^ (m + 1) = 2 * 2 ^ m := by rw [Int.pow_succ]; omega
  have hnat : ((2 ^ (m + 1) : Nat) : Int) = 2 * 2 ^ m := by
    rw [Int.natCast_pow]; exact hp2
  unfold toSigned
  rw [hp2]
  by_cases hv : 0 ≤ v
  · rw [Int.emod_eq_of_lt hv (by omega)]
    rw [if_pos (by omega)]; omega
  · have : v % (2 * 2 ^ m) = v + 2 * 2 ^ m := by
      rw [← Int.add_emod_right]; exact Int.emod_eq_of_lt (by omega) (by omega)
    rw [this, if_neg (by omega)]; omega

theorem readInt_app {n : Nat} (hn : 0 < n) {v : Int} (h0 : -(2 ^ (n - 1)) ≤ v)
    (h1 : v < 2 ^ (n - 1)) (t : Bits) :
    readInt n (natToBits n (v % 2 ^ n).toNat ++ t) = .ok (v, t) := by
  have hlt : (v % 2 ^ n).toNat < 2 ^ n := by
    have hp : (0 : Int) < 2 ^ n := Int.pow_pos (by decide)
    have h2 := Int.emod_lt_of_pos v hp
    have h3 := Int.emod_nonneg v (Int.ne_of_gt hp)
    have : ((2 ^ n : Nat) : Int) = 2 ^ n := by rw [Int.natCast_pow]; rfl
    omega
  simp [readInt, bitsToNat_natToBits, Nat.mod_eq_of_lt hlt, toSigned_emod hn h0 h1]

@[simp] theorem readBool_cons (b : Bool) (t : Bits) : readBool (b :: t) = .ok (b, t) := rfl

theorem readBytes_app (bs : Bytes) (t : Bits) :
    readBytes bs.length (bytesToBits bs ++ t) = .ok (bs, t) := by
  have h : (bytesToBits bs ++ t).take (8 * bs.length) = bytesToBits bs := by
    rw [← bytesToBits_length]; simp
  have h2 : (bytesToBits bs ++ t).drop (8 * bs.length) = t := by
    rw [← bytesToBits_length]; simp
  simp [readBytes, h, h2]

theorem readBytes_app' {n : Nat} {bs : Bytes} {t : Bits} (h : bs.length = n) :
    readBytes n (bytesToBits bs ++ t) = .ok (bs, t) := by
  subst h; exact readBytes_app bs t

/-! ### Local readers: the result depends only on the bits consumed. -/

/-- A reader is *local* when every success consumes some prefix of the stream, and gives the same
result for every continuation of that prefix. -/
def Loc (r : Rd α) : Prop :=
  ∀ s a rest, r s = .ok (a, rest) → ∃ pre, s = pre ++ rest ∧ ∀ t, r (pre ++ t) = .ok (a, t)

theorem Loc.pure (a : α) : Loc (Pure.pure a : Rd α) := by
  intro s b rest h; cases h; exact ⟨[], rfl, fun t => rfl⟩

theorem Loc.fail (e : Err) : Loc (Rd.fail e : Rd α) := by
  intro s b rest h; cases h

theorem Loc.lift (r : Except Err α) : Loc (Rd.lift r) := by
  intro s a rest h
  cases r with
  | ok a => cases h; exact ⟨[], rfl, fun t => rfl⟩
  | error e => cases h

theorem Loc.bind {x : Rd α} {f : α → Rd β} (hx : Loc x) (hf : ∀ a, Loc (f a)) :
    Loc (x >>= f) := by
  intro s b rest h
  rw [Rd.bind_apply] at h
  split at h
  · rename_i a s' hxs
    obtain ⟨p, rfl, hp⟩ := hx _ _ _ hxs
    obtain ⟨q, rfl, hq⟩ := hf _ _ _ _ h
    refine ⟨p ++ q, by simp, fun t => ?_⟩
    rw [Rd.bind_apply, List.append_assoc, hp]
    exact hq t
  · cases h

theorem Loc.ite {c : Prop} [Decidable c] {x y : Rd α} (hx : c → Loc x) (hy : ¬c → Loc y) :
    Loc (if c then x else y) := by
  split
  · exact hx ‹_›
  · exact hy ‹_›

theorem Loc.readBits (n : Nat) : Loc (readBits n) := by
  intro s a rest h
  unfold PyLisp.readBits at h
  split at h
  · cases h
    refine ⟨s.take n, by simp, fun t => ?_⟩
    apply readBits_app; simp; omega
  · cases h

theorem Loc.readUint (n : Nat) : Loc (readUint n) := by
  intro s a rest h
  unfold PyLisp.readUint at h
  split at h
  · cases h
    refine ⟨s.take n, by simp, fun t => ?_⟩
    apply readUint_app'; simp; omega
  · cases h

theorem Loc.readInt (n : Nat) : Loc (readInt n) := by
  intro s a rest h
  unfold PyLisp.readInt at h
  split at h
  · cases h
    refine ⟨s.take n, by simp, fun t => ?_⟩
    have hl : (s.take n).length = n := by simp; omega
    unfold PyLisp.readInt
    rw [if_pos (by simp; omega), List.take_append_of_le_length (by omega),
      List.drop_append_of_le_length (by omega)]
    have h1 : List.take n (List.take n s) = List.take n s := by rw [List.take_take]; simp
    have h2 : List.drop n (List.take n s) = [] := by rw [List.drop_eq_nil_iff]; omega
    rw [h1, h2]; rfl
  · cases h

theorem Loc.readBool : Loc readBool := by
  intro s a rest h
  unfold PyLisp.readBool at h
  split at h
  · cases h
  · cases h; exact ⟨[_], rfl, fun t => rfl⟩

theorem Loc.readBytes (n : Nat) : Loc (readBytes n) := by
  intro s a rest h
  unfold PyLisp.readBytes at h
  split at h
  · split at h
    · rename_i bs hbs
      simp only [Except.ok.injEq, Prod.mk.injEq] at h
      obtain ⟨rfl, rfl⟩ := h
      refine ⟨s.take (8 * n), by simp, fun t => ?_⟩
      have hl : bs.length = n := by
        have := bitsToBytes_length hbs
        simp at this; omega
      rw [← bytesToBits_of_bitsToBytes hbs]
      exact readBytes_app' hl
    · cases h
  · cases h

/-- A local reader accepts no strict prefix of what it consumed. -/
theorem Loc.no_short {r : Rd α} (hr : Loc r) {p : Bits} {a : α} (h : r p = .ok (a, []))
    {q t : Bits} (hp : p = q ++ t) (ht : t ≠ []) (b : α) (rest : Bits) : r q ≠ .ok (b, rest) := by
  intro hq
  obtain ⟨u, rfl, hu⟩ := hr _ _ _ hq
  have := hu (rest ++ t)
  rw [← List.append_assoc, ← hp, h] at this
  simp at this
  exact ht this.2.2

theorem Loc.length_le {r : Rd α} (hr : Loc r) {s : Bits} {a : α} {rest : Bits}
    (h : r s = .ok (a, rest)) : rest.length ≤ s.length := by
  obtain ⟨p, rfl, _⟩ := hr _ _ _ h
  simp

/-- binds agree when their parts agree -/
theorem Rd.bind_congr {x x' : Rd α} {f f' : α → Rd β} {s : Bits} (hx : x s = x' s)
    (hf : ∀ a s', x s = .ok (a, s') → f a s' = f' a s') : (x >>= f) s = (x' >>= f') s := by
  rw [Rd.bind_apply, Rd.bind_apply, ← hx]
  split
  · exact hf _ _ ‹_›
  · rfl

/-- the out-of-fuel pseudo error does not occur -/
def NF (x : Except Err α) : Prop := x ≠ .error .fuel

theorem NF.ok (a : α) : NF (.ok a : Except Err α) := by simp [NF]

theorem NF.bind {x : Rd α} {f : α → Rd β} {s : Bits} (hx : NF (x s))
    (hf : ∀ a s', x s = .ok (a, s') → NF (f a s')) : NF ((x >>= f) s) := by
  rw [Rd.bind_apply]
  split
  · exact hf _ _ ‹_›
  · rename_i e he
    rw [he] at hx
    intro h; apply hx; rw [Except.error.injEq] at h ⊢; exact h

theorem NF.readUint (n : Nat) (s : Bits) : NF (readUint n s) := by
  unfold PyLisp.readUint NF; split <;> simp
theorem NF.readInt (n : Nat) (s : Bits) : NF (readInt n s) := by
  unfold PyLisp.readInt NF; split <;> simp
theorem NF.readBits (n : Nat) (s : Bits) : NF (readBits n s) := by
  unfold PyLisp.readBits NF; split <;> simp
theorem NF.readBool (s : Bits) : NF (readBool s) := by
  unfold PyLisp.readBool NF; split <;> simp
theorem NF.bitsToBytes (s : Bits) : NF (bitsToBytes s) := by
  induction s using bitsToBytes.induct <;> simp_all [PyLisp.bitsToBytes, NF]
theorem NF.readBytes (n : Nat) (s : Bits) : NF (readBytes n s) := by
  unfold PyLisp.readBytes
  split
  · split
    · simp [NF]
    · rename_i e he
      have := NF.bitsToBytes (s.take (8 * n))
      rw [he] at this
      intro h; apply this; rw [Except.error.injEq] at h ⊢; exact h
  · simp [NF]
theorem NF.pure (a : α) (s : Bits) : NF ((Pure.pure a : Rd α) s) := by simp [NF]
theorem NF.fail {e : Err} (h : e ≠ .fuel) (s : Bits) : NF ((Rd.fail e : Rd α) s) := by
  simpa [NF] using h
theorem NF.lift {x : Except Err α} (h : NF x) (s : Bits) : NF (Rd.lift x s) := by
  cases x with
  | ok a => simp [NF]
  | error e =>
    rw [Rd.lift_error]
    intro h'; apply h; rw [Except.error.injEq] at h' ⊢; exact h'

end PyLisp

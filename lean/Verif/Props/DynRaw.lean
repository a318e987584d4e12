import Verif.DynRaw
import Verif.Props.Dyn
import Verif.Props.Canonical
/-
C89: attributes that no check looks at.

The specification relates an address object with arbitrary attribute values to the address that it is written as.
-/
namespace PyLisp.Props
open PyLisp

/-! ### Specification -/

/-- the value is written as the integer `i`: an int, long or boolean, a float (cut off towards zero), or an IP address
(its number) -/
inductive CountsAs : PyObj → Int → Prop
  | int (i : Int) : CountsAs (.int i) i
  | one : CountsAs (.bool true) 1
  | zero : CountsAs (.bool false) 0
  | whole (i : Int) : CountsAs (.float (some i)) i
  | cut (t : Int) : CountsAs (.frac t) t
  | ip (a : IP) : CountsAs (.addr (.ip a)) a.val

/-- the same where the value is formatted on its own: there a tuple of one value also counts as this value -/
inductive CountsAlone : PyObj → Int → Prop
  | value {o i} : CountsAs o i → CountsAlone o i
  | tuple {o i} : CountsAs o i → CountsAlone (.seq true [o]) i

/-- the value is written as a flag -/
def CountsFlag (o : PyObj) (b : Bool) : Prop := CountsAs o (if b = true then 1 else 0)

mutual
/-- the address that the object is written as -/
inductive AddrDen : DAddr → Addr → Prop
  | val (a : Addr) : AddrDen (.val (.addr a)) a
  | afiList {l m} : AddrsDen l m → AddrDen (.afiList l) (.afiList m)
  | inst {iid i d a mask k} : CountsAlone iid i → AddrDen d a → CountsAlone mask k →
      AddrDen (.inst iid d mask) (.inst i a k)
  | asn {n i d a} : CountsAlone n i → AddrDen d a → AddrDen (.asn n d) (.asn i a)
  | geo {no la lb lc ea oa ob oc alt north latDeg latMin latSec east lonDeg lonMin lonSec altitude d a} :
      CountsFlag no north → CountsAs la latDeg → CountsAs lb latMin → CountsAs lc latSec →
      CountsFlag ea east → CountsAs oa lonDeg → CountsAs ob lonMin → CountsAs oc lonSec →
      CountsAlone alt altitude → AddrDen d a →
      AddrDen (.geo no la lb lc ea oa ob oc alt d)
        (.geo north latDeg latMin latSec east lonDeg lonMin lonSec altitude a)
  | natT {mp i ep j g g' m m' p p' l l'} : CountsAs mp i → CountsAs ep j → AddrDen g g' → AddrDen m m' →
      AddrDen p p' → AddrsDen l l' → AddrDen (.natT mp ep g m p l) (.natT i j g' m' p' l')
inductive AddrsDen : List DAddr → List Addr → Prop
  | nil : AddrsDen [] []
  | cons {d a l m} : AddrDen d a → AddrsDen l m → AddrsDen (d :: l) (a :: m)
end

/-- the value is a number, where it is formatted together with others, or on its own -/
def IsNumber (o : PyObj) : Prop := ∃ i, CountsAs o i
def IsNumberAlone (o : PyObj) : Prop := ∃ i, CountsAlone o i

mutual
/-- every attribute of the object and of the objects in it that should be a number or a flag is a number -/
def Numbers : DAddr → Prop
  | .val _ => True
  | .afiList l => NumbersAll l
  | .inst iid d mask => IsNumberAlone iid ∧ Numbers d ∧ IsNumberAlone mask
  | .asn n d => IsNumberAlone n ∧ Numbers d
  | .geo no la lb lc ea oa ob oc alt d =>
    IsNumber no ∧ IsNumber la ∧ IsNumber lb ∧ IsNumber lc ∧ IsNumber ea ∧ IsNumber oa ∧ IsNumber ob ∧ IsNumber oc ∧
      IsNumberAlone alt ∧ Numbers d
  | .natT mp ep g m p l => IsNumber mp ∧ IsNumber ep ∧ Numbers g ∧ Numbers m ∧ Numbers p ∧ NumbersAll l
def NumbersAll : List DAddr → Prop
  | [] => True
  | d :: l => Numbers d ∧ NumbersAll l
end

/-! ### Proofs -/

theorem toInt_iff (o : PyObj) (i : Int) : o.toInt = .ok i ↔ CountsAs o i := by
  constructor
  · intro h
    cases o with
    | bool b => cases b <;> cases h <;> constructor
    | int j => cases h; constructor
    | float v =>
      cases v with
      | none => cases h
      | some j => cases h; constructor
    | frac t => cases h; constructor
    | addr a =>
      cases a with
      | ip a => cases h; constructor
      | _ => cases h
    | _ => cases h
  · intro h
    cases h <;> rfl

theorem toInt_error (o : PyObj) (e : Err) (h : o.toInt = .error e) : e = .type ∧ ¬ IsNumber o := by
  refine ⟨?_, fun ⟨i, hi⟩ => by rw [(toInt_iff o i).mpr hi] at h; cases h⟩
  unfold PyObj.toInt at h
  split at h <;> cases h
  rfl

theorem toIntLone_iff (o : PyObj) (i : Int) : o.toIntLone = .ok i ↔ CountsAlone o i := by
  constructor
  · intro h
    unfold PyObj.toIntLone at h
    split at h
    · exact .tuple ((toInt_iff _ _).mp h)
    · exact .value ((toInt_iff _ _).mp h)
  · intro h
    cases h with
    | value h =>
      have : o.toIntLone = o.toInt := by cases h <;> rfl
      rw [this]; exact (toInt_iff _ _).mpr h
    | tuple h => exact (toInt_iff _ _).mpr h

theorem toIntLone_error (o : PyObj) (e : Err) (h : o.toIntLone = .error e) : e = .type ∧ ¬ IsNumberAlone o := by
  refine ⟨?_, fun ⟨i, hi⟩ => by rw [(toIntLone_iff o i).mpr hi] at h; cases h⟩
  unfold PyObj.toIntLone at h
  split at h <;> exact (toInt_error _ _ h).1

theorem encUint_error {n : Nat} {i : Int} {e : Err} (h : encUint n i = .error e) : e = .value := by
  unfold encUint at h
  split at h <;> cases h
  rfl

theorem encInt_error {n : Nat} {i : Int} {e : Err} (h : encInt n i = .error e) : e = .value := by
  unfold encInt at h
  split at h <;> cases h
  rfl

theorem encBoolInt_error {i : Int} {e : Err} (h : encBoolInt i = .error e) : e = .value := by
  unfold encBoolInt at h
  repeat' split at h
  all_goals cases h
  rfl

theorem encLcaf_error {t : Nat} {r d : Bits} {e : Err} (h : encLcaf t r d = .error e) : e = .value := by
  rcases bind_error h with h | ⟨_, _, h⟩
  · exact encUint_error h
  · cases h

theorem encUintLone_ok {n : Nat} {o : PyObj} {b : Bits} (h : encUintLone n o = .ok b) :
    ∃ i, CountsAlone o i ∧ encUint n i = .ok b := by
  simp only [encUintLone, exBind_ok] at h
  obtain ⟨i, h1, h2⟩ := h
  exact ⟨i, (toIntLone_iff _ _).mp h1, h2⟩

theorem encUintLone_of {n : Nat} {o : PyObj} {i : Int} (h : CountsAlone o i) : encUintLone n o = encUint n i := by
  unfold encUintLone
  rw [(toIntLone_iff _ _).mpr h]
  rfl

theorem encUintLone_error {n : Nat} {o : PyObj} {e : Err} (h : encUintLone n o = .error e) :
    e = .value ∨ e = .type ∧ ¬ IsNumberAlone o := by
  rcases bind_error h with h | ⟨_, _, h⟩
  · exact .inr (toIntLone_error _ _ h)
  · exact .inl (encUint_error h)

theorem encBoolInt_flag (b : Bool) : encBoolInt (if b = true then 1 else 0) = .ok [b] := by cases b <;> rfl

theorem encBoolInt_ok {i : Int} {b : Bits} (h : encBoolInt i = .ok b) :
    ∃ f : Bool, i = (if f = true then 1 else 0) ∧ b = [f] := by
  unfold encBoolInt at h
  split at h
  · cases h; rename_i h0; exact ⟨false, h0, rfl⟩
  · split at h
    · cases h; rename_i h1; exact ⟨true, h1, rfl⟩
    · cases h

theorem encCoordinate_of {fl dg mi se : PyObj} {f : Bool} {d m s : Int} (hf : CountsFlag fl f) (hd : CountsAs dg d)
    (hm : CountsAs mi m) (hs : CountsAs se s) :
    encCoordinate fl dg mi se = (do
      let b1 ← encUint 15 d
      let b2 ← encUint 8 m
      let b3 ← encUint 8 s
      pure ([f] ++ b1 ++ b2 ++ b3)) := by
  unfold encCoordinate
  rw [(toInt_iff _ _).mpr hf, (toInt_iff _ _).mpr hd, (toInt_iff _ _).mpr hm, (toInt_iff _ _).mpr hs]
  simp only [exBind_okl]
  rw [encBoolInt_flag]
  rfl

theorem encCoordinate_ok {fl dg mi se : PyObj} {b : Bits} (h : encCoordinate fl dg mi se = .ok b) :
    ∃ f d m s, CountsFlag fl f ∧ CountsAs dg d ∧ CountsAs mi m ∧ CountsAs se s := by
  simp only [encCoordinate, exBind_ok] at h
  obtain ⟨f, hf, d, hd, m, hm, s, hs, b0, hb, _⟩ := h
  obtain ⟨f', rfl, -⟩ := encBoolInt_ok hb
  exact ⟨f', d, m, s, (toInt_iff _ _).mp hf, (toInt_iff _ _).mp hd, (toInt_iff _ _).mp hm, (toInt_iff _ _).mp hs⟩

theorem encCoordinate_error {fl dg mi se : PyObj} {e : Err} (h : encCoordinate fl dg mi se = .error e) :
    e = .value ∨ e = .type ∧ ¬ (IsNumber fl ∧ IsNumber dg ∧ IsNumber mi ∧ IsNumber se) := by
  rcases bind_error h with h | ⟨_, _, h⟩
  · have := toInt_error _ _ h; exact .inr ⟨this.1, fun hn => this.2 hn.1⟩
  rcases bind_error h with h | ⟨_, _, h⟩
  · have := toInt_error _ _ h; exact .inr ⟨this.1, fun hn => this.2 hn.2.1⟩
  rcases bind_error h with h | ⟨_, _, h⟩
  · have := toInt_error _ _ h; exact .inr ⟨this.1, fun hn => this.2 hn.2.2.1⟩
  rcases bind_error h with h | ⟨_, _, h⟩
  · have := toInt_error _ _ h; exact .inr ⟨this.1, fun hn => this.2 hn.2.2.2⟩
  rcases bind_error h with h | ⟨_, _, h⟩
  · exact .inl (encBoolInt_error h)
  rcases bind_error h with h | ⟨_, _, h⟩
  · exact .inl (encUint_error h)
  rcases bind_error h with h | ⟨_, _, h⟩
  · exact .inl (encUint_error h)
  rcases bind_error h with h | ⟨_, _, h⟩
  · exact .inl (encUint_error h)
  cases h

theorem geo_agree {x1 x2 x3 x4 x5 x6 x8 : Except Err Bits} {y : Except Err Int} {v : Int} (hy : y = .ok v)
    (n e : Bool) (x7 : Int → Except Err Bits) (F : Bits → Except Err Bits) :
    (do
      let b1 ← (do
        let b1 ← x1
        let b2 ← x2
        let b3 ← x3
        pure ([n] ++ b1 ++ b2 ++ b3))
      let b2 ← (do
        let b1 ← x4
        let b2 ← x5
        let b3 ← x6
        pure ([e] ++ b1 ++ b2 ++ b3))
      let v ← y
      let b3 ← x7 v
      let d ← x8
      F (b1 ++ b2 ++ b3 ++ d)) =
    (do
      let b1 ← x1
      let b2 ← x2
      let b3 ← x3
      let b4 ← x4
      let b5 ← x5
      let b6 ← x6
      let b7 ← x7 v
      let d ← x8
      F ([n] ++ b1 ++ b2 ++ b3 ++ [e] ++ b4 ++ b5 ++ b6 ++ b7 ++ d)) := by
  subst hy
  cases x1 with
  | error => rfl
  | ok => cases x2 with
    | error => rfl
    | ok => cases x3 with
      | error => rfl
      | ok => cases x4 with
        | error => rfl
        | ok => cases x5 with
          | error => rfl
          | ok => cases x6 with
            | error => rfl
            | ok =>
              cases h7 : x7 v with
              | error => simp only [exPure, exBind_okl, h7]; rfl
              | ok => cases x8 with
                | error => simp only [exPure, exBind_okl, h7]; rfl
                | ok => simp only [exPure, exBind_okl, h7, List.append_assoc]

mutual
theorem addr_agree : ∀ (d : DAddr) (a : Addr), AddrDen d a → d.enc = encAddr a
  | .val o, a, h => by cases h; simp [DAddr.enc, encAddrD]
  | .afiList l, a, h => by
    cases h with
    | afiList h => rw [DAddr.enc, encAddr, addrs_agree l _ h]
  | .inst iid d mask, a, h => by
    cases h with
    | inst h1 h2 h3 => rw [DAddr.enc, encAddr, encUintLone_of h1, encUintLone_of h3, addr_agree d _ h2]
  | .asn n d, a, h => by
    cases h with
    | asn h1 h2 => rw [DAddr.enc, encAddr, encUintLone_of h1, addr_agree d _ h2]
  | .geo no la lb lc ea oa ob oc alt d, a, h => by
    cases h with
    | geo h1 h2 h3 h4 h5 h6 h7 h8 h9 h10 =>
      rw [DAddr.enc, encAddr, encCoordinate_of h1 h2 h3 h4, encCoordinate_of h5 h6 h7 h8, 
        addr_agree d _ h10]
      exact geo_agree ((toIntLone_iff _ _).mpr h9) _ _ (encInt 32)
        (fun x => do
          let b ← encLcaf 5 (zeros 8) x
          pure (natToBits 16 16387 ++ b))
  | .natT mp ep g m p l, a, h => by
    cases h with
    | natT h1 h2 h3 h4 h5 h6 =>
      rw [DAddr.enc, encAddr, bind_of_ok ((toInt_iff _ _).mpr h1), bind_of_ok ((toInt_iff _ _).mpr h2),
        addr_agree g _ h3, addr_agree m _ h4, addr_agree p _ h5, addrs_agree l _ h6]
theorem addrs_agree : ∀ (l : List DAddr) (m : List Addr), AddrsDen l m → encDAddrs l = encAddrs m
  | [], m, h => by cases h; simp [encDAddrs, encAddrs]
  | d :: l, m, h => by
    cases h with
    | cons h1 h2 => rw [encDAddrs, encAddrs, addr_agree d _ h1, addrs_agree l _ h2]
end

mutual
theorem addr_written : ∀ (d : DAddr) (b : Bits), d.enc = .ok b → ∃ a, AddrDen d a
  | .val o, b, h => by
    cases o with
    | addr a => exact ⟨a, .val a⟩
    | _ => simp [DAddr.enc, encAddrD] at h
  | .afiList l, b, h => by
    simp only [DAddr.enc, exBind_ok] at h
    obtain ⟨x, h1, _⟩ := h
    obtain ⟨m, hm⟩ := addrs_written l x h1
    exact ⟨_, .afiList hm⟩
  | .inst iid d mask, b, h => by
    simp only [DAddr.enc, exBind_ok] at h
    obtain ⟨x, h1, y, h2, z, h3, _⟩ := h
    obtain ⟨k, hk, -⟩ := encUintLone_ok h1
    obtain ⟨i, hi, -⟩ := encUintLone_ok h2
    obtain ⟨a, ha⟩ := addr_written d z h3
    exact ⟨_, .inst hi ha hk⟩
  | .asn n d, b, h => by
    simp only [DAddr.enc, exBind_ok] at h
    obtain ⟨y, h2, z, h3, _⟩ := h
    obtain ⟨i, hi, -⟩ := encUintLone_ok h2
    obtain ⟨a, ha⟩ := addr_written d z h3
    exact ⟨_, .asn hi ha⟩
  | .geo no la lb lc ea oa ob oc alt d, b, h => by
    simp only [DAddr.enc, exBind_ok] at h
    obtain ⟨x, h1, y, h2, v, h3, w, _, z, h5, _⟩ := h
    obtain ⟨f, p, q, r, f1, f2, f3, f4⟩ := encCoordinate_ok h1
    obtain ⟨f', p', q', r', g1, g2, g3, g4⟩ := encCoordinate_ok h2
    obtain ⟨a, ha⟩ := addr_written d z h5
    exact ⟨_, .geo f1 f2 f3 f4 g1 g2 g3 g4 ((toIntLone_iff _ _).mp h3) ha⟩
  | .natT mp ep g m p l, b, h => by
    simp only [DAddr.enc, exBind_ok] at h
    obtain ⟨i, h1, j, h2, _, _, _, _, dg, h3, dm, h4, dp, h5, dl, h6, _⟩ := h
    obtain ⟨a1, ha1⟩ := addr_written g dg h3
    obtain ⟨a2, ha2⟩ := addr_written m dm h4
    obtain ⟨a3, ha3⟩ := addr_written p dp h5
    obtain ⟨a4, ha4⟩ := addrs_written l dl h6
    exact ⟨_, .natT ((toInt_iff _ _).mp h1) ((toInt_iff _ _).mp h2) ha1 ha2 ha3 ha4⟩
theorem addrs_written : ∀ (l : List DAddr) (b : Bits), encDAddrs l = .ok b → ∃ m, AddrsDen l m
  | [], b, h => ⟨[], .nil⟩
  | d :: l, b, h => by
    simp only [encDAddrs, exBind_ok] at h
    obtain ⟨x, h1, y, h2, _⟩ := h
    obtain ⟨a, ha⟩ := addr_written d x h1
    obtain ⟨m, hm⟩ := addrs_written l y h2
    exact ⟨_, .cons ha hm⟩
end

mutual
theorem typed_error : ∀ (a : Addr) (e : Err), encAddr a = .error e → e = .value
  | .none, e, h => by simp [encAddr] at h
  | .ip a, e, h => by simp [encAddr] at h
  | .net n, e, h => by simp [encAddr] at h
  | .null, e, h => by
    rw [encAddr] at h
    rcases bind_error h with h | ⟨_, _, h⟩
    · exact encLcaf_error h
    · cases h
  | .afiList l, e, h => by
    rw [encAddr] at h
    rcases bind_error h with h | ⟨_, _, h⟩
    · exact typed_errors l e h
    rcases bind_error h with h | ⟨_, _, h⟩
    · exact encLcaf_error h
    cases h
  | .inst iid a mask, e, h => by
    rw [encAddr] at h
    rcases bind_error h with h | ⟨_, _, h⟩
    · exact encUint_error h
    rcases bind_error h with h | ⟨_, _, h⟩
    · exact encUint_error h
    rcases bind_error h with h | ⟨_, _, h⟩
    · exact typed_error a e h
    rcases bind_error h with h | ⟨_, _, h⟩
    · exact encLcaf_error h
    cases h
  | .asn n a, e, h => by
    rw [encAddr] at h
    rcases bind_error h with h | ⟨_, _, h⟩
    · exact encUint_error h
    rcases bind_error h with h | ⟨_, _, h⟩
    · exact typed_error a e h
    rcases bind_error h with h | ⟨_, _, h⟩
    · exact encLcaf_error h
    cases h
  | .geo _ _ _ _ _ _ _ _ _ a, e, h => by
    rw [encAddr] at h
    rcases bind_error h with h | ⟨_, _, h⟩
    · exact encUint_error h
    rcases bind_error h with h | ⟨_, _, h⟩
    · exact encUint_error h
    rcases bind_error h with h | ⟨_, _, h⟩
    · exact encUint_error h
    rcases bind_error h with h | ⟨_, _, h⟩
    · exact encUint_error h
    rcases bind_error h with h | ⟨_, _, h⟩
    · exact encUint_error h
    rcases bind_error h with h | ⟨_, _, h⟩
    · exact encUint_error h
    rcases bind_error h with h | ⟨_, _, h⟩
    · exact encInt_error h
    rcases bind_error h with h | ⟨_, _, h⟩
    · exact typed_error a e h
    rcases bind_error h with h | ⟨_, _, h⟩
    · exact encLcaf_error h
    cases h
  | .natT _ _ g m p l, e, h => by
    rw [encAddr] at h
    rcases bind_error h with h | ⟨_, _, h⟩
    · exact encUint_error h
    rcases bind_error h with h | ⟨_, _, h⟩
    · exact encUint_error h
    rcases bind_error h with h | ⟨_, _, h⟩
    · exact typed_error g e h
    rcases bind_error h with h | ⟨_, _, h⟩
    · exact typed_error m e h
    rcases bind_error h with h | ⟨_, _, h⟩
    · exact typed_error p e h
    rcases bind_error h with h | ⟨_, _, h⟩
    · exact typed_errors l e h
    rcases bind_error h with h | ⟨_, _, h⟩
    · exact encLcaf_error h
    cases h
theorem typed_errors : ∀ (l : List Addr) (e : Err), encAddrs l = .error e → e = .value
  | [], e, h => by simp [encAddrs] at h
  | a :: l, e, h => by
    rw [encAddrs] at h
    rcases bind_error h with h | ⟨_, _, h⟩
    · exact typed_error a e h
    rcases bind_error h with h | ⟨_, _, h⟩
    · exact typed_errors l e h
    cases h
end

mutual
theorem addr_error : ∀ (d : DAddr) (e : Err), d.enc = .error e → e = .value ∨ e = .type ∧ ¬ Numbers d
  | .val o, e, h => by
    cases o with
    | addr a =>
      rw [DAddr.enc] at h
      exact .inl (typed_error a e h)
    | _ => simp [DAddr.enc, encAddrD] at h; exact .inl h.symm
  | .afiList l, e, h => by
    rw [DAddr.enc] at h
    rcases bind_error h with h | ⟨_, _, h⟩
    · exact (addrs_error l e h).imp id fun h => ⟨h.1, fun hn => h.2 (by simpa only [Numbers] using hn)⟩
    rcases bind_error h with h | ⟨_, _, h⟩
    · exact .inl (encLcaf_error h)
    cases h
  | .inst iid d mask, e, h => by
    rw [DAddr.enc] at h
    simp only [Numbers]
    rcases bind_error h with h | ⟨_, _, h⟩
    · exact (encUintLone_error h).imp id fun h => ⟨h.1, fun hn => h.2 hn.2.2⟩
    rcases bind_error h with h | ⟨_, _, h⟩
    · exact (encUintLone_error h).imp id fun h => ⟨h.1, fun hn => h.2 hn.1⟩
    rcases bind_error h with h | ⟨_, _, h⟩
    · exact (addr_error d e h).imp id fun h => ⟨h.1, fun hn => h.2 hn.2.1⟩
    rcases bind_error h with h | ⟨_, _, h⟩
    · exact .inl (encLcaf_error h)
    cases h
  | .asn n d, e, h => by
    rw [DAddr.enc] at h
    simp only [Numbers]
    rcases bind_error h with h | ⟨_, _, h⟩
    · exact (encUintLone_error h).imp id fun h => ⟨h.1, fun hn => h.2 hn.1⟩
    rcases bind_error h with h | ⟨_, _, h⟩
    · exact (addr_error d e h).imp id fun h => ⟨h.1, fun hn => h.2 hn.2⟩
    rcases bind_error h with h | ⟨_, _, h⟩
    · exact .inl (encLcaf_error h)
    cases h
  | .geo no la lb lc ea oa ob oc alt d, e, h => by
    rw [DAddr.enc] at h
    simp only [Numbers]
    rcases bind_error h with h | ⟨_, _, h⟩
    · exact (encCoordinate_error h).imp id fun h =>
        ⟨h.1, fun hn => h.2 ⟨hn.1, hn.2.1, hn.2.2.1, hn.2.2.2.1⟩⟩
    rcases bind_error h with h | ⟨_, _, h⟩
    · exact (encCoordinate_error h).imp id fun h =>
        ⟨h.1, fun hn => h.2 ⟨hn.2.2.2.2.1, hn.2.2.2.2.2.1, hn.2.2.2.2.2.2.1, hn.2.2.2.2.2.2.2.1⟩⟩
    rcases bind_error h with h | ⟨_, _, h⟩
    · have := toIntLone_error _ _ h
      exact .inr ⟨this.1, fun hn => this.2 hn.2.2.2.2.2.2.2.2.1⟩
    rcases bind_error h with h | ⟨_, _, h⟩
    · exact .inl (encInt_error h)
    rcases bind_error h with h | ⟨_, _, h⟩
    · exact (addr_error d e h).imp id fun h => ⟨h.1, fun hn => h.2 hn.2.2.2.2.2.2.2.2.2⟩
    rcases bind_error h with h | ⟨_, _, h⟩
    · exact .inl (encLcaf_error h)
    cases h
  | .natT mp ep g m p l, e, h => by
    rw [DAddr.enc] at h
    simp only [Numbers]
    rcases bind_error h with h | ⟨_, _, h⟩
    · have := toInt_error _ _ h
      exact .inr ⟨this.1, fun hn => this.2 hn.1⟩
    rcases bind_error h with h | ⟨_, _, h⟩
    · have := toInt_error _ _ h
      exact .inr ⟨this.1, fun hn => this.2 hn.2.1⟩
    rcases bind_error h with h | ⟨_, _, h⟩
    · exact .inl (encUint_error h)
    rcases bind_error h with h | ⟨_, _, h⟩
    · exact .inl (encUint_error h)
    rcases bind_error h with h | ⟨_, _, h⟩
    · exact (addr_error g e h).imp id fun h => ⟨h.1, fun hn => h.2 hn.2.2.1⟩
    rcases bind_error h with h | ⟨_, _, h⟩
    · exact (addr_error m e h).imp id fun h => ⟨h.1, fun hn => h.2 hn.2.2.2.1⟩
    rcases bind_error h with h | ⟨_, _, h⟩
    · exact (addr_error p e h).imp id fun h => ⟨h.1, fun hn => h.2 hn.2.2.2.2.1⟩
    rcases bind_error h with h | ⟨_, _, h⟩
    · exact (addrs_error l e h).imp id fun h => ⟨h.1, fun hn => h.2 hn.2.2.2.2.2⟩
    rcases bind_error h with h | ⟨_, _, h⟩
    · exact .inl (encLcaf_error h)
    cases h
theorem addrs_error : ∀ (l : List DAddr) (e : Err), encDAddrs l = .error e → e = .value ∨ e = .type ∧ ¬ NumbersAll l
  | [], e, h => by simp [encDAddrs] at h
  | d :: l, e, h => by
    rw [encDAddrs] at h
    simp only [NumbersAll]
    rcases bind_error h with h | ⟨_, _, h⟩
    · exact (addr_error d e h).imp id fun h => ⟨h.1, fun hn => h.2 hn.1⟩
    rcases bind_error h with h | ⟨_, _, h⟩
    · exact (addrs_error l e h).imp id fun h => ⟨h.1, fun hn => h.2 hn.2⟩
    cases h
end

theorem countsAs_unique {o : PyObj} {i j : Int} (h : CountsAs o i) (h' : CountsAs o j) : i = j := by
  rw [← toInt_iff] at h h'
  rw [h] at h'
  exact Except.ok.inj h'

theorem countsAlone_unique {o : PyObj} {i j : Int} (h : CountsAlone o i) (h' : CountsAlone o j) : i = j := by
  rw [← toIntLone_iff] at h h'
  rw [h] at h'
  exact Except.ok.inj h'

theorem countsFlag_unique {o : PyObj} {b c : Bool} (h : CountsFlag o b) (h' : CountsFlag o c) : b = c := by
  have := countsAs_unique h h'
  cases b <;> cases c <;> first | rfl | exact absurd this (by decide)

mutual
theorem addrDen_unique : ∀ {d : DAddr} {a b : Addr}, AddrDen d a → AddrDen d b → a = b
  | .val _, _, _, h, h' => by cases h; cases h'; rfl
  | .afiList l, _, _, h, h' => by
    cases h with | afiList h => cases h' with | afiList h' => rw [addrsDen_unique h h']
  | .inst iid d mask, _, _, h, h' => by
    cases h with
    | inst h1 h2 h3 =>
      cases h' with
      | inst g1 g2 g3 => rw [countsAlone_unique h1 g1, addrDen_unique h2 g2, countsAlone_unique h3 g3]
  | .asn n d, _, _, h, h' => by
    cases h with
    | asn h1 h2 => cases h' with | asn g1 g2 => rw [countsAlone_unique h1 g1, addrDen_unique h2 g2]
  | .geo _ _ _ _ _ _ _ _ _ d, _, _, h, h' => by
    cases h with
    | geo h1 h2 h3 h4 h5 h6 h7 h8 h9 h10 =>
      cases h' with
      | geo g1 g2 g3 g4 g5 g6 g7 g8 g9 g10 =>
        rw [countsFlag_unique h1 g1, countsAs_unique h2 g2, countsAs_unique h3 g3, countsAs_unique h4 g4,
          countsFlag_unique h5 g5, countsAs_unique h6 g6, countsAs_unique h7 g7, countsAs_unique h8 g8,
          countsAlone_unique h9 g9, addrDen_unique h10 g10]
  | .natT mp ep g m p l, _, _, h, h' => by
    cases h with
    | natT h1 h2 h3 h4 h5 h6 =>
      cases h' with
      | natT g1 g2 g3 g4 g5 g6 =>
        rw [countsAs_unique h1 g1, countsAs_unique h2 g2, addrDen_unique h3 g3, addrDen_unique h4 g4,
          addrDen_unique h5 g5, addrsDen_unique h6 g6]
theorem addrsDen_unique : ∀ {l : List DAddr} {m n : List Addr}, AddrsDen l m → AddrsDen l n → m = n
  | [], _, _, h, h' => by cases h; cases h'; rfl
  | d :: l, _, _, h, h' => by
    cases h with
    | cons h1 h2 => cases h' with | cons g1 g2 => rw [addrDen_unique h1 g1, addrsDen_unique h2 g2]
end

/-- C89: an LCAF address object with attributes of any kind is written exactly as the address it stands for is (and
refused, with the same exception, if that one is); it stands for at most one.  If it stands for none, writing it raises
TypeError or ValueError, and TypeError only if some attribute that should be a number is none. -/
theorem lcaf_object (d : DAddr) :
    (∀ a, AddrDen d a → d.enc = encAddr a) ∧
    (∀ a b, AddrDen d a → AddrDen d b → a = b) ∧
    ((∀ a, ¬ AddrDen d a) → d.enc = .error .value ∨ d.enc = .error .type) ∧
    (Numbers d → d.enc ≠ .error .type) := by
  refine ⟨addr_agree d, fun a b => addrDen_unique, ?_, ?_⟩
  · intro h
    cases he : d.enc with
    | ok b => obtain ⟨a, ha⟩ := addr_written d b he; exact absurd ha (h a)
    | error e =>
      rcases addr_error d e he with rfl | ⟨rfl, _⟩
      · exact .inl rfl
      · exact .inr rfl
  · intro hn he
    rcases addr_error d _ he with h | h
    · cases h
    · exact h.2 hn

/-- C89: whatever is written for an LCAF address object is read back as the address it stands for (with networks in it
as their first addresses). -/
theorem lcaf_object_read (d : DAddr) (b : Bits) (h : d.enc = .ok b) (t : Bits) :
    ∃ a a', AddrDen d a ∧ Flattened a a' ∧ readAfi none (b ++ t) = .ok (a', t) := by
  obtain ⟨a, ha⟩ := addr_written d b h
  rw [addr_agree d a ha] at h
  exact ⟨a, a.strip, ha, flattened_strip a, lcaf_round_trip a b h t⟩

/-- C89: the next header of an options header. -/
theorem options_header_object (nh : PyObj) (options : Bytes) :
    (∀ i, CountsAlone nh i → encOptsD nh options = encOpts i options) ∧
    (¬ IsNumberAlone nh → encOptsD nh options = .error .type) := by
  constructor
  · intro i h
    rw [encOptsD, encOpts, encUintLone_of h]
  · intro h
    cases hn : nh.toIntLone with
    | ok i => exact absurd ⟨i, (toIntLone_iff _ _).mp hn⟩ h
    | error e =>
      have := (toIntLone_error _ _ hn).1
      subst this
      unfold encOptsD encUintLone
      rw [hn]
      rfl

/-- C89: the attributes of a routing header. -/
theorem routing_header_object (nh rt sl : PyObj) (data : Bytes) :
    (∀ i j k, CountsAlone nh i → CountsAlone rt j → CountsAlone sl k →
      encRoutingD nh rt sl data = encRouting i j k data) ∧
    (¬ (IsNumberAlone nh ∧ IsNumberAlone rt ∧ IsNumberAlone sl) →
      encRoutingD nh rt sl data = .error .value ∨ encRoutingD nh rt sl data = .error .type) := by
  constructor
  · intro i j k h1 h2 h3
    rw [encRoutingD, encRouting, encUintLone_of h1, encUintLone_of h2, encUintLone_of h3]
  · intro h
    cases he : encRoutingD nh rt sl data with
    | ok b =>
      simp only [encRoutingD, exBind_ok] at he
      obtain ⟨_, h1, _, _, _, h2, _, h3, _⟩ := he
      obtain ⟨i, hi, -⟩ := encUintLone_ok h1
      obtain ⟨j, hj, -⟩ := encUintLone_ok h2
      obtain ⟨k, hk, -⟩ := encUintLone_ok h3
      exact absurd ⟨⟨i, hi⟩, ⟨j, hj⟩, ⟨k, hk⟩⟩ h
    | error e =>
      have : e = .value ∨ e = .type := by
        rcases bind_error he with h | ⟨_, _, h⟩
        · exact (encUintLone_error h).imp id And.left
        rcases bind_error h with h | ⟨_, _, h⟩
        · exact .inl (encUint_error h)
        rcases bind_error h with h | ⟨_, _, h⟩
        · exact (encUintLone_error h).imp id And.left
        rcases bind_error h with h | ⟨_, _, h⟩
        · exact (encUintLone_error h).imp id And.left
        cases h
      rcases this with rfl | rfl
      · exact .inl rfl
      · exact .inr rfl

/-- C89: the attributes of a fragment header. -/
theorem fragment_header_object (nh off mf ident : PyObj) :
    (∀ i j f k, CountsAlone nh i → CountsAlone off j → CountsAlone mf (if f = true then 1 else 0) →
      CountsAlone ident k → encFragmentD nh off mf ident = encFragment i j f k) ∧
    (¬ (IsNumberAlone nh ∧ IsNumberAlone off ∧ (∃ f : Bool, CountsAlone mf (if f = true then 1 else 0)) ∧
        IsNumberAlone ident) →
      encFragmentD nh off mf ident = .error .value ∨ encFragmentD nh off mf ident = .error .type) := by
  constructor
  · intro i j f k h1 h2 h3 h4
    unfold encFragmentD encFragment
    rw [encUintLone_of h1, encUintLone_of h2, encUintLone_of h4]
    cases encUint 8 i with
    | error e => rfl
    | ok b1 =>
      cases encUint 13 j with
      | error e => rfl
      | ok b2 =>
        simp only [exBind_okl]
        rw [bind_of_ok ((toIntLone_iff _ _).mpr h3), encBoolInt_flag]
        rfl
  · intro h
    cases he : encFragmentD nh off mf ident with
    | ok b =>
      simp only [encFragmentD, exBind_ok] at he
      obtain ⟨_, h1, _, h2, v, h3, _, h4, _, h5, _⟩ := he
      obtain ⟨i, hi, -⟩ := encUintLone_ok h1
      obtain ⟨j, hj, -⟩ := encUintLone_ok h2
      obtain ⟨k, hk, -⟩ := encUintLone_ok h5
      obtain ⟨f, rfl, -⟩ := encBoolInt_ok h4
      exact absurd ⟨⟨i, hi⟩, ⟨j, hj⟩, ⟨f, (toIntLone_iff _ _).mp h3⟩, ⟨k, hk⟩⟩ h
    | error e =>
      have : e = .value ∨ e = .type := by
        rcases bind_error he with h | ⟨_, _, h⟩
        · exact (encUintLone_error h).imp id And.left
        rcases bind_error h with h | ⟨_, _, h⟩
        · exact (encUintLone_error h).imp id And.left
        rcases bind_error h with h | ⟨_, _, h⟩
        · exact .inr (toIntLone_error _ _ h).1
        rcases bind_error h with h | ⟨_, _, h⟩
        · exact .inl (encBoolInt_error h)
        rcases bind_error h with h | ⟨_, _, h⟩
        · exact (encUintLone_error h).imp id And.left
        cases h
      rcases this with rfl | rfl
      · exact .inl rfl
      · exact .inr rfl

/-- C89: the checksum of a UDP message: with ports that pass the checks (C87), the header is written as that of the
message with this number as its checksum, and refused with TypeError or ValueError if it is no number. -/
theorem udp_checksum_object (d : DUdpHdr) (h : UdpHdr) (ck : PyObj) (plen : Nat) (hd : UdpDen d h) :
    (CountsAlone ck h.cksum → encUdpD d ck plen = (do
      let _ ← h.sanitize
      encUdpRaw h plen)) ∧
    (¬ IsNumberAlone ck → encUdpD d ck plen = .error .value ∨ encUdpD d ck plen = .error .type) := by
  obtain ⟨hs, -⟩ := udp_object d
  have e1 : encUintD 16 d.sport = encUint 16 h.sport := by
    unfold encUintD
    have := hd.sport
    generalize d.sport = o at this
    generalize h.sport = i at this
    cases this <;> rfl
  have e2 : encUintD 16 d.dport = encUint 16 h.dport := by
    unfold encUintD
    have := hd.dport
    generalize d.dport = o at this
    generalize h.dport = i at this
    cases this <;> rfl
  constructor
  · intro hc
    unfold encUdpD encUdpRaw
    rw [hs h hd, e1, e2, encUintLone_of hc]
  · intro hn
    cases he : encUdpD d ck plen with
    | ok b =>
      simp only [encUdpD, exBind_ok] at he
      obtain ⟨_, _, _, _, _, _, _, _, _, h5, _⟩ := he
      obtain ⟨i, hi, -⟩ := encUintLone_ok h5
      exact absurd ⟨i, hi⟩ hn
    | error e =>
      have : e = .value ∨ e = .type := by
        rcases bind_error he with h' | ⟨_, _, h'⟩
        · rw [hs h hd] at h'
          unfold UdpHdr.sanitize at h'
          repeat' split at h'
          all_goals cases h'
          all_goals exact .inl rfl
        rw [e1] at h'
        rcases bind_error h' with h' | ⟨_, _, h'⟩
        · exact .inl (encUint_error h')
        rw [e2] at h'
        rcases bind_error h' with h' | ⟨_, _, h'⟩
        · exact .inl (encUint_error h')
        rcases bind_error h' with h' | ⟨_, _, h'⟩
        · exact .inl (encUint_error h')
        rcases bind_error h' with h' | ⟨_, _, h'⟩
        · exact (encUintLone_error h').imp id And.left
        cases h'
      rcases this with rfl | rfl
      · exact .inl rfl
      · exact .inr rfl

/-! ### Examples -/

-- an instance ID of 7.9 is sent as 7, one of (7,) too, and one that is an IP address as its number
example : AddrDen (.inst (.frac 7) (.val (.addr (.ip ⟨.v4, 0xc0000201, by decide⟩))) (.int 32))
    (.inst 7 (.ip ⟨.v4, 0xc0000201, by decide⟩) 32) :=
  .inst (.value (.cut 7)) (.val _) (.value (.int 32))
example : AddrDen (.inst (.seq true [.int 7]) (.val (.addr .none)) (.addr (.ip ⟨.v4, 32, by decide⟩)))
    (.inst 7 .none 32) :=
  .inst (.tuple (.int 7)) (.val _) (.value (.ip _))
example : (DAddr.inst (.frac 7) (.val (.addr .none)) (.int 32)).enc.toOption.isSome = true := by decide +kernel

-- a text is refused with TypeError, an address that is none with ValueError
example : (DAddr.inst (.text (some [0x37])) (.val (.addr .none)) (.int 32)).enc = .error .type := by decide +kernel
example : (DAddr.inst (.int 7) (.val (.text none)) (.int 32)).enc = .error .value := by decide +kernel
example : Numbers (.inst (.int 7) (.val (.text none)) (.int 32)) := by
  simp only [Numbers]
  exact ⟨⟨7, .value (.int 7)⟩, trivial, ⟨32, .value (.int 32)⟩⟩
example : ∀ a, ¬ AddrDen (.inst (.int 7) (.val (.text none)) (.int 32)) a := by
  intro a h
  cases h with
  | inst _ h _ => cases h

-- the next header of an extension header made without one is None
example : encOptsD (.addr .none) [] = .error .type := by decide +kernel
example : ¬ IsNumberAlone (.addr .none) := by
  rintro ⟨i, h⟩
  cases h with
  | value h => cases h
example : CountsAlone (.frac 6) 6 ∧ UdpDen { sport := .int 4342, dport := .bool true } { sport := 4342, dport := 1 } :=
  ⟨.value (.cut 6), .int _, .one⟩

end PyLisp.Props

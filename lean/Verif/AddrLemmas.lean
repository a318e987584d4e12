import Verif.Addr
namespace PyLisp

attribute [local irreducible] natToBits readUint readBits readBool readBytes readInt zeros readIP

theorem readIP_app (a : IP) (t : Bits) :
    readIP a.ver (natToBits a.ver.width a.val ++ t) = .ok (a, t) := by
  unfold readIP
  rw [dif_pos (by simp)]
  congr 2
  · refine IP.ext' ?_ ?_
    · rfl
    have : List.take a.ver.width (natToBits a.ver.width a.val ++ t) = natToBits a.ver.width a.val := by
      rw [List.take_append_of_le_length (by simp), List.take_of_length_le (by simp)]
    simp only [this, bitsToNat_natToBits, Nat.mod_eq_of_lt a.lt]
  · simp

theorem Loc.readIP (v : Ver) : Loc (readIP v) := by
  intro s a rest h
  unfold PyLisp.readIP at h
  split at h
  · rename_i hl
    cases h
    refine ⟨s.take v.width, by simp, fun t => ?_⟩
    have h1 := natToBits_bitsToNat (s.take v.width)
    rw [List.length_take_of_le hl] at h1
    have := readIP_app ⟨v, bitsToNat (s.take v.width), by
      have := bitsToNat_lt (s.take v.width)
      rwa [List.length_take_of_le hl] at this⟩ t
    simp only at this
    rwa [h1] at this
  · cases h

theorem readIP_ok {v : Ver} {s : Bits} {a : IP} {rest : Bits} (h : readIP v s = .ok (a, rest)) :
    a.ver = v ∧ s = natToBits v.width a.val ++ rest := by
  unfold PyLisp.readIP at h
  split at h
  · rename_i hl
    cases h
    refine ⟨rfl, ?_⟩
    have h1 := natToBits_bitsToNat (s.take v.width)
    rw [List.length_take_of_le hl] at h1
    rw [h1]; simp
  · cases h

theorem readUint_ok {n : Nat} {s : Bits} {v : Nat} {rest : Bits}
    (h : readUint n s = .ok (v, rest)) : v < 2 ^ n ∧ s = natToBits n v ++ rest := by
  refine ⟨readUint_lt h, ?_⟩
  unfold readUint at h
  split at h
  · rename_i hl
    cases h
    have h1 := natToBits_bitsToNat (s.take n)
    rw [List.length_take_of_le hl] at h1
    rw [h1]; simp
  · cases h

theorem readBits_ok {n : Nat} {s : Bits} {v : Bits} {rest : Bits}
    (h : readBits n s = .ok (v, rest)) : v.length = n ∧ s = v ++ rest := by
  unfold readBits at h
  split at h
  · cases h; simp; omega
  · cases h

theorem readBool_ok {s : Bits} {v : Bool} {rest : Bits}
    (h : readBool s = .ok (v, rest)) : s = v :: rest := by
  unfold readBool at h
  split at h
  · cases h
  · cases h; rfl

theorem readBytes_ok {n : Nat} {s : Bits} {v : Bytes} {rest : Bits}
    (h : readBytes n s = .ok (v, rest)) : v.length = n ∧ s = bytesToBits v ++ rest := by
  unfold readBytes at h
  split at h
  · split at h
    · rename_i hl _ hb
      simp only [Except.ok.injEq, Prod.mk.injEq] at h
      obtain ⟨rfl, rfl⟩ := h
      have := bitsToBytes_length hb
      rw [bytesToBits_of_bitsToBytes hb]
      simp at this ⊢; omega
    · cases h
  · cases h

theorem encLcaf_ok {type : Nat} {r d b : Bits} (h : encLcaf type r d = .ok b) :
    d.length / 8 < 65536 ∧
    b = zeros 8 ++ zeros 8 ++ natToBits 8 type ++ r ++ natToBits 16 (d.length / 8) ++ d := by
  simp only [encLcaf, exBind_ok, encUint_iff] at h
  obtain ⟨l, ⟨h0, h1, rfl⟩, h2⟩ := h
  rw [Int.toNat_natCast] at h2
  cases h2
  exact ⟨by omega, rfl⟩

theorem Loc.of_eq_lift {r : Rd α} {x : Except Err α} (h : r = Rd.lift x) : Loc r := h ▸ Loc.lift x

theorem readLcaf_app (rd : Rd Addr) (rds) (plen : Option Nat) (type rsvd2 : Nat) (d t : Bits)
    (ht : type < 256) (hr : rsvd2 < 256) (hl : d.length / 8 < 65536) (hm : d.length % 8 = 0) :
    readLcaf rd rds plen (zeros 8 ++ zeros 8 ++ natToBits 8 type ++ natToBits 8 rsvd2 ++
      natToBits 16 (d.length / 8) ++ d ++ t) =
    Rd.lift (lcafFromData rd rds plen type rsvd2 d) t := by
  simp only [readLcaf, List.append_assoc, Rd.bind_apply]
  rw [readBits_app (zeros_length 8)]
  dsimp only
  rw [readBits_app (zeros_length 8)]
  dsimp only
  rw [readUint_app ht]
  dsimp only
  rw [readUint_app hr]
  dsimp only
  rw [readUint_app hl]
  dsimp only
  rw [readBits_app (by omega)]

theorem readAddr_succ (f : Nat) (plen : Option Nat) :
    readAddr (f + 1) plen = readAddrStep (readAddr f .none) (readAddrs f) plen := by
  rw [readAddr]

theorem readAddrStep_lcaf (rd rds) (plen : Option Nat) (t : Bits) :
    readAddrStep rd rds plen (natToBits 16 16387 ++ t) = readLcaf rd rds plen t := by
  unfold readAddrStep
  rw [Rd.bind_apply, readUint_app (by omega)]
  dsimp only
  rw [if_neg (by omega), if_neg (by omega), if_neg (by omega), if_pos rfl]

/-- reading back what `encLcaf` wrote, inside an AFI address -/
theorem readAddr_lcaf (f : Nat) (plen : Option Nat) (type rsvd2 : Nat) (d b t : Bits)
    (h : encLcaf type (natToBits 8 rsvd2) d = .ok b)
    (ht : type < 256) (hr : rsvd2 < 256) (hm : d.length % 8 = 0) :
    readAddr (f + 1) plen (natToBits 16 16387 ++ b ++ t) =
    Rd.lift (lcafFromData (readAddr f .none) (readAddrs f) plen type rsvd2 d) t := by
  obtain ⟨hl, rfl⟩ := encLcaf_ok h
  rw [readAddr_succ, List.append_assoc, readAddrStep_lcaf]
  exact readLcaf_app _ _ _ _ _ _ _ ht hr hl hm

theorem encLcaf_length {type : Nat} {r d b : Bits} (h : encLcaf type r d = .ok b)
    (hr : r.length = 8) : b.length = 48 + d.length := by
  obtain ⟨hl, rfl⟩ := encLcaf_ok h
  simp [hr]; omega

theorem encIP_length (a : IP) : (encIP a).length = 16 + a.ver.width := by
  unfold encIP
  split <;> rename_i h <;> simp [h, Ver.width]

theorem readAddr_ip (f : Nat) (plen : Option Nat) (a : IP) (t : Bits) :
    readAddr (f + 1) plen (encIP a ++ t) = Rd.lift (applyPrefix plen (.ip a)) t := by
  unfold readAddr readAddrStep
  have hr := readIP_app a t
  cases h : a.ver with
  | v4 =>
    have he : encIP a = natToBits 16 1 ++ natToBits 32 a.val := by simp [encIP, h]
    rw [h] at hr
    rw [he, Rd.bind_apply, List.append_assoc, readUint_app (by decide)]
    simp only [Nat.reduceEqDiff, if_false, if_true, Rd.bind_apply]
    simp only [Ver.width] at hr
    rw [hr]
  | v6 =>
    have he : encIP a = natToBits 16 2 ++ natToBits 128 a.val := by simp [encIP, h]
    rw [h] at hr
    rw [he, Rd.bind_apply, List.append_assoc, readUint_app (by decide)]
    simp only [Nat.reduceEqDiff, if_false, if_true, Rd.bind_apply]
    simp only [Ver.width] at hr
    rw [hr]

theorem runOn_ok {r : Rd α} {d : Bits} {a : α} {rest : Bits} (h : r d = .ok (a, rest)) :
    runOn r d = .ok a := by simp [runOn, h]

theorem toNat_lt {v : Int} {n : Nat} (h0 : 0 ≤ v) (h1 : v < 2 ^ n) : v.toNat < 2 ^ n := by
  have : ((2 ^ n : Nat) : Int) = 2 ^ n := by rw [Int.natCast_pow]; rfl
  omega

theorem readUint_app_int {n : Nat} {v : Int} (h0 : 0 ≤ v) (h1 : v < 2 ^ n) (t : Bits) :
    readUint n (natToBits n v.toNat ++ t) = .ok (v.toNat, t) :=
  readUint_app (toNat_lt h0 h1) t

mutual
theorem encAddr_rt : ∀ (a : Addr) (b : Bits), encAddr a = .ok b →
    b.length % 8 = 0 ∧ 16 ≤ b.length ∧
    ∀ f t, b.length ≤ f → readAddr f .none (b ++ t) = .ok (a.strip, t)
  | .none, b, h => by
    simp only [encAddr, Except.ok.injEq] at h; subst h
    refine ⟨by simp, by simp, ?_⟩
    intro f t hf
    match f, hf with
    | f + 1, _ =>
      unfold readAddr readAddrStep
      rw [Rd.bind_apply, ← natToBits_zero, readUint_app (by decide)]
      rfl
    | 0, hf => simp at hf
  | .ip a, b, h => by
    simp only [encAddr, Except.ok.injEq] at h; subst h
    have := encIP_length a
    refine ⟨?_, by omega, ?_⟩
    · cases hv : a.ver <;> simp [hv, Ver.width] at this <;> omega
    intro f t hf
    match f, hf with
    | f + 1, _ => rw [readAddr_ip]; rfl
    | 0, hf => omega
  | .net n, b, h => by
    simp only [encAddr, Except.ok.injEq] at h; subst h
    have := encIP_length n.first
    refine ⟨?_, by omega, ?_⟩
    · cases hv : n.first.ver <;> simp [hv, Ver.width] at this <;> omega
    intro f t hf
    match f, hf with
    | f + 1, _ => rw [readAddr_ip]; rfl
    | 0, hf => omega
  | .null, b, h => by
    simp only [encAddr, exBind_ok] at h
    obtain ⟨c, hc, h⟩ := h
    simp only [exPure, Except.ok.injEq] at h; subst h
    have hl := encLcaf_length hc (by simp)
    simp only [List.length_append, natToBits_length, List.length_nil] at hl ⊢
    refine ⟨by omega, by omega, ?_⟩
    intro f t hf
    match f, hf with
    | f + 1, _ =>
      rw [← natToBits_zero] at hc
      rw [readAddr_lcaf f _ 0 0 [] c t hc (by decide) (by decide) (by simp)]
      rfl
    | 0, hf => omega
  | .afiList l, b, h => by
    simp only [encAddr, exBind_ok] at h
    obtain ⟨d, hd, c, hc, h⟩ := h
    simp only [exPure, Except.ok.injEq] at h; subst h
    have hl := encLcaf_length hc (by simp)
    obtain ⟨hm, ih⟩ := encAddrs_rt l d hd
    simp only [List.length_append, natToBits_length] at hl ⊢
    refine ⟨by omega, by omega, ?_⟩
    intro f t hf
    match f, hf with
    | f + 1, _ =>
      rw [← natToBits_zero] at hc
      rw [readAddr_lcaf f _ 1 0 d c t hc (by decide) (by decide) hm]
      simp only [lcafFromData, Nat.reduceEqDiff, if_false, if_true]
      rw [ih f (by omega)]
      rfl
    | 0, hf => omega
  | .inst iid a m, b, h => by
    simp only [encAddr, exBind_ok, encUint_iff] at h
    obtain ⟨mb, ⟨hm0, hm1, rfl⟩, ib, ⟨hi0, hi1, rfl⟩, d, hd, c, hc, h⟩ := h
    simp only [exPure, Except.ok.injEq] at h; subst h
    have hl := encLcaf_length hc (by simp)
    obtain ⟨hm, h16, ih⟩ := encAddr_rt a d hd
    simp only [List.length_append, natToBits_length] at hl ⊢
    refine ⟨by omega, by omega, ?_⟩
    intro f t hf
    match f, hf with
    | f + 1, _ =>
      rw [readAddr_lcaf f _ 2 m.toNat _ c t hc (by decide) (toNat_lt hm0 hm1) (by simp; omega)]
      simp only [lcafFromData, Nat.reduceEqDiff, if_false, if_true]
      rw [runOn_ok (a := .inst iid a.strip m) (rest := [])]
      · rfl
      · have := ih f [] (by omega)
        rw [List.append_nil] at this
        simp only [instFromData, Rd.bind_apply, readUint_app_int hi0 hi1, this, applyPrefix,
          Rd.lift_ok, Rd.pure_apply, Int.toNat_of_nonneg hi0, Int.toNat_of_nonneg hm0]
    | 0, hf => omega
  | .asn n a, b, h => by
    simp only [encAddr, exBind_ok, encUint_iff] at h
    obtain ⟨ib, ⟨hi0, hi1, rfl⟩, d, hd, c, hc, h⟩ := h
    simp only [exPure, Except.ok.injEq] at h; subst h
    have hl := encLcaf_length hc (by simp)
    obtain ⟨hm, h16, ih⟩ := encAddr_rt a d hd
    simp only [List.length_append, natToBits_length] at hl ⊢
    refine ⟨by omega, by omega, ?_⟩
    intro f t hf
    match f, hf with
    | f + 1, _ =>
      rw [← natToBits_zero] at hc
      rw [readAddr_lcaf f _ 3 0 _ c t hc (by decide) (by decide)
        (by simp; omega)]
      simp only [lcafFromData, Nat.reduceEqDiff, if_false, if_true]
      rw [runOn_ok (a := .asn n a.strip) (rest := [])]
      · rfl
      · have := ih f [] (by omega)
        rw [List.append_nil] at this
        simp only [asnFromData, Rd.bind_apply, readUint_app_int hi0 hi1, this, applyPrefix,
          Rd.lift_ok, Rd.pure_apply, Int.toNat_of_nonneg hi0]
    | 0, hf => omega
  | .geo n ld lm ls e od om os alt a, b, h => by
    simp only [encAddr, exBind_ok, encUint_iff, encInt_iff] at h
    obtain ⟨_, ⟨h10, h11, rfl⟩, _, ⟨h20, h21, rfl⟩, _, ⟨h30, h31, rfl⟩, _, ⟨h40, h41, rfl⟩,
      _, ⟨h50, h51, rfl⟩, _, ⟨h60, h61, rfl⟩, _, ⟨h70, h71, rfl⟩, d, hd, c, hc, h⟩ := h
    simp only [exPure, Except.ok.injEq] at h; subst h
    have hl := encLcaf_length hc (by simp)
    obtain ⟨hm, h16, ih⟩ := encAddr_rt a d hd
    simp only [List.length_append, natToBits_length, List.length_cons, List.length_nil] at hl ⊢
    refine ⟨by omega, by omega, ?_⟩
    intro f t hf
    match f, hf with
    | f + 1, _ =>
      rw [← natToBits_zero] at hc
      rw [readAddr_lcaf f _ 5 0 _ c t hc (by decide) (by decide)
        (by simp; omega)]
      simp only [lcafFromData, Nat.reduceEqDiff, if_false, if_true]
      rw [runOn_ok (a := .geo n ld lm ls e od om os alt a.strip) (rest := [])]
      · rfl
      · have := ih f [] (by omega)
        rw [List.append_nil] at this
        simp only [geoFromData, Rd.bind_apply, List.append_assoc, List.cons_append, List.nil_append,
          readBool_cons, readUint_app_int h10 h11,
          readUint_app_int h20 h21, readUint_app_int h30 h31, readUint_app_int h40 h41,
          readUint_app_int h50 h51, readUint_app_int h60 h61, readInt_app (by decide : 0 < 32) h70 h71,
          this, applyPrefix,
          Rd.lift_ok, Rd.pure_apply, Int.toNat_of_nonneg h10, Int.toNat_of_nonneg h20,
          Int.toNat_of_nonneg h30, Int.toNat_of_nonneg h40, Int.toNat_of_nonneg h50,
          Int.toNat_of_nonneg h60]
    | 0, hf => omega
  | .natT mp ep g m p l, b, h => by
    simp only [encAddr, exBind_ok, encUint_iff] at h
    obtain ⟨_, ⟨h10, h11, rfl⟩, _, ⟨h20, h21, rfl⟩, dg, hg, dm, hdm, dp, hp, dr, hr, c, hc, h⟩ := h
    simp only [exPure, Except.ok.injEq] at h; subst h
    have hl := encLcaf_length hc (by simp)
    obtain ⟨hg1, hg2, ihg⟩ := encAddr_rt g dg hg
    obtain ⟨hm1, hm2, ihm⟩ := encAddr_rt m dm hdm
    obtain ⟨hp1, hp2, ihp⟩ := encAddr_rt p dp hp
    obtain ⟨hr1, ihr⟩ := encAddrs_rt l dr hr
    simp only [List.length_append, natToBits_length, List.length_cons, List.length_nil] at hl ⊢
    refine ⟨by omega, by omega, ?_⟩
    intro f t hf
    match f, hf with
    | f + 1, _ =>
      rw [← natToBits_zero] at hc
      rw [readAddr_lcaf f _ 7 0 _ c t hc (by decide) (by decide)
        (by simp; omega)]
      simp only [lcafFromData, Nat.reduceEqDiff, if_false, if_true]
      rw [runOn_ok (a := .natT mp ep g.strip m.strip p.strip (stripList l)) (rest := [])]
      · rfl
      · simp only [natFromData, Rd.bind_apply, List.append_assoc,
          readUint_app_int h10 h11, readUint_app_int h20 h21,
          ihg f _ (by omega : dg.length ≤ f), ihm f _ (by omega : dm.length ≤ f),
          ihp f _ (by omega : dp.length ≤ f), readAll, ihr f (by omega : dr.length < f), Rd.pure_apply, Int.toNat_of_nonneg h10,
          Int.toNat_of_nonneg h20]
    | 0, hf => omega
theorem encAddrs_rt : ∀ (l : List Addr) (b : Bits), encAddrs l = .ok b →
    b.length % 8 = 0 ∧ ∀ f, b.length < f → readAddrs f .none b = .ok (stripList l)
  | [], b, h => by
    simp only [encAddrs, Except.ok.injEq] at h; subst h
    refine ⟨rfl, fun f hf => ?_⟩
    match f, hf with
    | f + 1, _ => simp [readAddrs, stripList]
    | 0, hf => simp at hf
  | a :: l, b, h => by
    simp only [encAddrs, exBind_ok] at h
    obtain ⟨x, hx, y, hy, h⟩ := h
    simp only [exPure, Except.ok.injEq] at h; subst h
    obtain ⟨h1, h2, ih⟩ := encAddr_rt a x hx
    obtain ⟨h3, ih'⟩ := encAddrs_rt l y hy
    simp only [List.length_append]
    refine ⟨by omega, fun f hf => ?_⟩
    match f, hf with
    | f + 1, hf =>
      have hne : x ++ y ≠ [] := by
        intro h0; have := congrArg List.length h0; simp only [List.length_append, List.length_nil] at this; omega
      rw [readAddrs, if_neg hne, ih f y (by omega)]
      simp only [applyPrefix, ih' f (by omega), stripList]
    | 0, hf => omega
end

/-! ### Locality, fuel -/

theorem Loc.readLcaf (rd rds) (plen : Option Nat) : Loc (readLcaf rd rds plen) :=
  .bind (.readBits _) fun _ => .bind (.readBits _) fun _ => .bind (.readUint _) fun _ =>
  .bind (.readUint _) fun _ => .bind (.readUint _) fun _ => .bind (.readBits _) fun _ => .lift _

theorem Loc.readAddrStep (rd rds) (plen : Option Nat) : Loc (readAddrStep rd rds plen) := by
  refine .bind (.readUint _) fun afi => .ite (fun _ => ?_) fun _ => .ite (fun _ => ?_) fun _ =>
    .ite (fun _ => ?_) fun _ => .ite (fun _ => ?_) fun _ => .fail _
  · split
    · exact .pure _
    · exact .ite (fun _ => .pure _) fun _ => .fail _
  · exact .bind (.readIP _) fun _ => .lift _
  · exact .bind (.readIP _) fun _ => .lift _
  · exact .readLcaf _ _ _

theorem Loc.readAddr (f : Nat) (plen : Option Nat) : Loc (readAddr f plen) := by
  cases f with
  | zero => rw [PyLisp.readAddr]; exact .fail _
  | succ f => rw [readAddr_succ]; exact .readAddrStep _ _ _

theorem readAddrStep_consumes {rd rds} {plen : Option Nat} {s rest : Bits} {a : Addr}
    (h : readAddrStep rd rds plen s = .ok (a, rest)) : rest.length + 16 ≤ s.length := by
  unfold readAddrStep at h
  rw [Rd.bind_apply] at h
  split at h
  · rename_i afi s' h1
    obtain ⟨_, rfl⟩ := readUint_ok h1
    have : rest.length ≤ s'.length := by
      refine Loc.length_le ?_ h
      refine .ite (fun _ => ?_) fun _ => .ite (fun _ => ?_) fun _ =>
        .ite (fun _ => ?_) fun _ => .ite (fun _ => ?_) fun _ => .fail _
      · split
        · exact .pure _
        · exact .ite (fun _ => .pure _) fun _ => .fail _
      · exact .bind (.readIP _) fun _ => .lift _
      · exact .bind (.readIP _) fun _ => .lift _
      · exact .readLcaf _ _ _
    simp; omega
  · cases h

theorem readAddr_consumes {f : Nat} {plen : Option Nat} {s rest : Bits} {a : Addr}
    (h : readAddr f plen s = .ok (a, rest)) : rest.length + 16 ≤ s.length := by
  cases f with
  | zero => rw [readAddr] at h; cases h
  | succ f => rw [readAddr_succ] at h; exact readAddrStep_consumes h

theorem runOn_congr {r r' : Rd α} {d : Bits} (h : r d = r' d) : runOn r d = runOn r' d := by
  simp [runOn, h]

theorem lcafFromData_congr {rd rd' : Rd Addr} {rds rds'} {plen : Option Nat} {type rsvd2 : Nat}
    {data : Bits} (hl : Loc rd)
    (h1 : ∀ s : Bits, s.length ≤ data.length → rd s = rd' s)
    (h2 : ∀ p (s : Bits), s.length ≤ data.length → rds p s = rds' p s) :
    lcafFromData rd rds plen type rsvd2 data = lcafFromData rd' rds' plen type rsvd2 data := by
  unfold lcafFromData
  rw [h2 plen data (Nat.le_refl _)]
  have hi : runOn (instFromData rd plen rsvd2) data = runOn (instFromData rd' plen rsvd2) data := by
    apply runOn_congr
    refine Rd.bind_congr rfl fun a s1 e1 => ?_
    have l1 := (Loc.readUint 32).length_le e1
    exact Rd.bind_congr (h1 _ (by omega)) fun _ _ _ => rfl
  have ha : runOn (asnFromData rd plen) data = runOn (asnFromData rd' plen) data := by
    apply runOn_congr
    refine Rd.bind_congr rfl fun a s1 e1 => ?_
    have l1 := (Loc.readUint 32).length_le e1
    exact Rd.bind_congr (h1 _ (by omega)) fun _ _ _ => rfl
  have hg : runOn (geoFromData rd plen) data = runOn (geoFromData rd' plen) data := by
    apply runOn_congr
    refine Rd.bind_congr rfl fun a s1 e1 => ?_
    have l1 := (Loc.readBool).length_le e1
    refine Rd.bind_congr rfl fun a s2 e2 => ?_
    have l2 := (Loc.readUint _).length_le e2
    refine Rd.bind_congr rfl fun a s3 e3 => ?_
    have l3 := (Loc.readUint _).length_le e3
    refine Rd.bind_congr rfl fun a s4 e4 => ?_
    have l4 := (Loc.readUint _).length_le e4
    refine Rd.bind_congr rfl fun a s5 e5 => ?_
    have l5 := (Loc.readBool).length_le e5
    refine Rd.bind_congr rfl fun a s6 e6 => ?_
    have l6 := (Loc.readUint _).length_le e6
    refine Rd.bind_congr rfl fun a s7 e7 => ?_
    have l7 := (Loc.readUint _).length_le e7
    refine Rd.bind_congr rfl fun a s8 e8 => ?_
    have l8 := (Loc.readUint _).length_le e8
    refine Rd.bind_congr rfl fun a s9 e9 => ?_
    have l9 := (Loc.readInt _).length_le e9
    exact Rd.bind_congr (h1 _ (by omega)) fun _ _ _ => rfl
  have hn : runOn (natFromData rd (rds .none)) data = runOn (natFromData rd' (rds' .none)) data := by
    apply runOn_congr
    refine Rd.bind_congr rfl fun a s1 e1 => ?_
    have l1 := (Loc.readUint _).length_le e1
    refine Rd.bind_congr rfl fun a s2 e2 => ?_
    have l2 := (Loc.readUint _).length_le e2
    refine Rd.bind_congr (h1 _ (by omega)) fun a s3 e3 => ?_
    have l3 := hl.length_le e3
    refine Rd.bind_congr (h1 _ (by omega)) fun a s4 e4 => ?_
    have l4 := hl.length_le e4
    refine Rd.bind_congr (h1 _ (by omega)) fun a s5 e5 => ?_
    have l5 := hl.length_le e5
    refine Rd.bind_congr ?_ fun _ _ _ => rfl
    unfold readAll; rw [h2 _ _ (by omega)]
  rw [hi, ha, hg, hn]

theorem readAddrStep_congr {rd rd' : Rd Addr} {rds rds'} {plen : Option Nat} {S : Bits} (hl : Loc rd)
    (h1 : ∀ s : Bits, s.length + 64 ≤ S.length → rd s = rd' s)
    (h2 : ∀ p (s : Bits), s.length + 64 ≤ S.length → rds p s = rds' p s) :
    readAddrStep rd rds plen S = readAddrStep rd' rds' plen S := by
  unfold readAddrStep
  refine Rd.bind_congr rfl fun afi s1 e1 => ?_
  have l1 := (readUint_ok e1).2
  split
  · rfl
  split
  · rfl
  split
  · rfl
  split
  · unfold readLcaf
    refine Rd.bind_congr rfl fun _ s2 e2 => ?_
    have l2 := readBits_ok e2
    refine Rd.bind_congr rfl fun _ s3 e3 => ?_
    have l3 := readBits_ok e3
    refine Rd.bind_congr rfl fun _ s4 e4 => ?_
    have l4 := (readUint_ok e4).2
    refine Rd.bind_congr rfl fun _ s5 e5 => ?_
    have l5 := (readUint_ok e5).2
    refine Rd.bind_congr rfl fun _ s6 e6 => ?_
    have l6 := (readUint_ok e6).2
    refine Rd.bind_congr rfl fun data s7 e7 => ?_
    have l7 := (readBits_ok e7).2
    have hlen : data.length + 64 ≤ S.length := by
      rw [l1, l2.2, l3.2, l4, l5, l6, l7]
      simp [l2.1, l3.1]; omega
    rw [lcafFromData_congr hl (fun s hs => h1 s (by omega)) (fun p s hs => h2 p s (by omega))]
  · rfl

theorem readAddr_fuel_aux : ∀ (n : Nat) (s : Bits), s.length ≤ n →
    (∀ plen f f', s.length ≤ f → s.length ≤ f' → 0 < f → 0 < f' →
      readAddr f plen s = readAddr f' plen s) ∧
    (∀ plen f f', s.length < f → s.length < f' → readAddrs f plen s = readAddrs f' plen s) := by
  intro n
  induction n using Nat.strongRecOn with
  | ind n ih =>
    intro s hs
    have first : ∀ plen f f', s.length ≤ f → s.length ≤ f' → 0 < f → 0 < f' →
      readAddr f plen s = readAddr f' plen s := by
      intro plen f f' h1 h2 h3 h4
      match f, f', h3, h4 with
      | f + 1, f' + 1, _, _ =>
        rw [readAddr_succ, readAddr_succ]
        refine readAddrStep_congr (.readAddr _ _) (fun t ht => ?_) (fun p t ht => ?_)
        · exact (ih t.length (by omega) t (Nat.le_refl _)).1 _ _ _ (by omega) (by omega) (by omega)
            (by omega)
        · exact (ih t.length (by omega) t (Nat.le_refl _)).2 _ _ _ (by omega) (by omega)
    refine ⟨first, ?_⟩
    intro plen f f' h1 h2
    match f, f', h1, h2 with
    | f + 1, f' + 1, h1, h2 =>
      rw [readAddrs, readAddrs]
      split
      · rfl
      · rename_i hne
        have : 0 < s.length := List.length_pos_iff.mpr hne
        rw [first .none f f' (by omega) (by omega) (by omega) (by omega)]
        split
        · rename_i a rest ha
          have hc := readAddr_consumes ha
          split
          · rw [(ih rest.length (by omega) rest (Nat.le_refl _)).2 plen f f' (by omega) (by omega)]
          · rfl
        · rfl

theorem readAddr_fuel {plen : Option Nat} {s : Bits} {f f' : Nat} (h1 : s.length ≤ f)
    (h2 : s.length ≤ f') (h3 : 0 < f) (h4 : 0 < f') : readAddr f plen s = readAddr f' plen s :=
  (readAddr_fuel_aux s.length s (Nat.le_refl _)).1 plen f f' h1 h2 h3 h4

/-- the AFI reader unfolds without reference to fuel -/
theorem readAfi_unfold (plen : Option Nat) (s : Bits) :
    readAfi plen s = readAddrStep (readAfi .none)
      (fun p d => readAddrs (d.length + 1) p d) plen s := by
  unfold readAfi
  rw [readAddr_succ]
  refine readAddrStep_congr (.readAddr _ _) (fun t ht => ?_) (fun p t ht => ?_)
  · exact readAddr_fuel (by omega) (by omega) (by omega) (by omega)
  · exact (readAddr_fuel_aux t.length t (Nat.le_refl _)).2 _ _ _ (by omega) (by omega)

theorem Loc.readAfi (plen : Option Nat) : Loc (readAfi plen) := by
  intro s a rest h
  obtain ⟨pre, rfl, hp⟩ := Loc.readAddr _ _ _ _ _ h
  refine ⟨pre, rfl, fun t => ?_⟩
  unfold PyLisp.readAfi
  have e1 := hp []
  have e4 : PyLisp.readAddr ((pre ++ t).length + 1) plen (pre ++ []) = .ok (a, []) := by
    rw [← e1]; apply readAddr_fuel <;> simp <;> omega
  obtain ⟨q, hq, hq2⟩ := Loc.readAddr _ plen _ _ _ e4
  simp only [List.append_nil] at hq
  subst hq
  exact hq2 t

theorem NF.applyPrefix (plen : Option Nat) (a : Addr) : NF (applyPrefix plen a) := by
  unfold PyLisp.applyPrefix
  split
  · simp [NF]
  · split
    · split <;> simp [NF]
    · rename_i e he
      intro h
      rw [Except.error.injEq] at h
      subst h
      exact IP.supernet_ne_fuel _ _ he
  · unfold Addr.noNetwork; split <;> simp [NF]

theorem NF.readIP (v : Ver) (s : Bits) : NF (readIP v s) := by
  unfold PyLisp.readIP NF; split <;> simp

theorem NF.runOn {r : Rd α} {d : Bits} (h : NF (r d)) : NF (runOn r d) := by
  unfold PyLisp.runOn
  split
  · simp [NF]
  · rename_i e he; rw [he] at h
    intro h'; apply h; rw [Except.error.injEq] at h' ⊢; exact h'

theorem NF.lcafFromData {rd : Rd Addr} {rds} {plen : Option Nat} {type rsvd2 : Nat}
    {data : Bits} (hl : Loc rd)
    (h1 : ∀ s : Bits, s.length ≤ data.length → NF (rd s))
    (h2 : ∀ p (s : Bits), s.length ≤ data.length → NF (rds p s)) :
    NF (lcafFromData rd rds plen type rsvd2 data) := by
  unfold PyLisp.lcafFromData
  split
  · simp [NF]
  split
  · have := h2 plen data (Nat.le_refl _)
    split
    · simp [NF]
    · rename_i e he; rw [he] at this
      intro h'; apply this; rw [Except.error.injEq] at h' ⊢; exact h'
  split
  · apply NF.runOn
    refine .bind (.readUint _ _) fun a s1 e1 => ?_
    have l1 := (Loc.readUint _).length_le e1
    refine .bind (h1 _ (by omega)) fun a s2 e2 => .bind (.lift (.applyPrefix _ _) _) fun _ _ _ => .pure _ _
  split
  · apply NF.runOn
    refine .bind (.readUint _ _) fun a s1 e1 => ?_
    have l1 := (Loc.readUint _).length_le e1
    refine .bind (h1 _ (by omega)) fun a s2 e2 => .bind (.lift (.applyPrefix _ _) _) fun _ _ _ => .pure _ _
  split
  · apply NF.runOn
    refine .bind (.readBool _) fun a s1 e1 => ?_
    have l1 := (Loc.readBool).length_le e1
    refine .bind (.readUint _ _) fun a s2 e2 => ?_
    have l2 := (Loc.readUint _).length_le e2
    refine .bind (.readUint _ _) fun a s3 e3 => ?_
    have l3 := (Loc.readUint _).length_le e3
    refine .bind (.readUint _ _) fun a s4 e4 => ?_
    have l4 := (Loc.readUint _).length_le e4
    refine .bind (.readBool _) fun a s5 e5 => ?_
    have l5 := (Loc.readBool).length_le e5
    refine .bind (.readUint _ _) fun a s6 e6 => ?_
    have l6 := (Loc.readUint _).length_le e6
    refine .bind (.readUint _ _) fun a s7 e7 => ?_
    have l7 := (Loc.readUint _).length_le e7
    refine .bind (.readUint _ _) fun a s8 e8 => ?_
    have l8 := (Loc.readUint _).length_le e8
    refine .bind (.readInt _ _) fun a s9 e9 => ?_
    have l9 := (Loc.readInt _).length_le e9
    refine .bind (h1 _ (by omega)) fun a s2 e2 => .bind (.lift (.applyPrefix _ _) _) fun _ _ _ => .pure _ _
  split
  · apply NF.runOn
    refine .bind (.readUint _ _) fun a s1 e1 => ?_
    have l1 := (Loc.readUint _).length_le e1
    refine .bind (.readUint _ _) fun a s2 e2 => ?_
    have l2 := (Loc.readUint _).length_le e2
    refine .bind (h1 _ (by omega)) fun a s3 e3 => ?_
    have l3 := hl.length_le e3
    refine .bind (h1 _ (by omega)) fun a s4 e4 => ?_
    have l4 := hl.length_le e4
    refine .bind (h1 _ (by omega)) fun a s5 e5 => ?_
    have l5 := hl.length_le e5
    refine .bind ?_ fun _ _ _ => .pure _ _
    have := h2 .none s5 (by omega)
    unfold readAll
    split
    · simp [NF]
    · rename_i e he; rw [he] at this
      intro h'; apply this; rw [Except.error.injEq] at h' ⊢; exact h'
  · simp [NF]

theorem NF.readAddrStep {rd : Rd Addr} {rds} {plen : Option Nat} {S : Bits} (hl : Loc rd)
    (h1 : ∀ s : Bits, s.length + 64 ≤ S.length → NF (rd s))
    (h2 : ∀ p (s : Bits), s.length + 64 ≤ S.length → NF (rds p s)) :
    NF (readAddrStep rd rds plen S) := by
  unfold PyLisp.readAddrStep
  refine .bind (.readUint _ _) fun afi s1 e1 => ?_
  have l1 := (readUint_ok e1).2
  split
  · split
    · exact .pure _ _
    · split
      · exact .pure _ _
      · exact .fail (by simp) _
  split
  · exact .bind (.readIP _ _) fun _ _ _ => .lift (.applyPrefix _ _) _
  split
  · exact .bind (.readIP _ _) fun _ _ _ => .lift (.applyPrefix _ _) _
  split
  · unfold PyLisp.readLcaf
    refine .bind (.readBits _ _) fun _ s2 e2 => ?_
    have l2 := readBits_ok e2
    refine .bind (.readBits _ _) fun _ s3 e3 => ?_
    have l3 := readBits_ok e3
    refine .bind (.readUint _ _) fun _ s4 e4 => ?_
    have l4 := (readUint_ok e4).2
    refine .bind (.readUint _ _) fun _ s5 e5 => ?_
    have l5 := (readUint_ok e5).2
    refine .bind (.readUint _ _) fun _ s6 e6 => ?_
    have l6 := (readUint_ok e6).2
    refine .bind (.readBits _ _) fun data s7 e7 => ?_
    have l7 := (readBits_ok e7).2
    have hlen : data.length + 64 ≤ S.length := by
      rw [l1, l2.2, l3.2, l4, l5, l6, l7]
      simp [l2.1, l3.1]; omega
    exact .lift (.lcafFromData hl (fun s hs => h1 s (by omega)) (fun p s hs => h2 p s (by omega))) _
  · exact .fail (by simp) _

theorem NF.readAddr_aux : ∀ (n : Nat) (s : Bits), s.length ≤ n →
    (∀ plen f, s.length ≤ f → 0 < f → NF (readAddr f plen s)) ∧
    (∀ plen f, s.length < f → NF (readAddrs f plen s)) := by
  intro n
  induction n using Nat.strongRecOn with
  | ind n ih =>
    intro s hs
    have first : ∀ plen f, s.length ≤ f → 0 < f → NF (readAddr f plen s) := by
      intro plen f h1 h3
      match f, h3 with
      | f + 1, _ =>
        rw [readAddr_succ]
        refine NF.readAddrStep (.readAddr _ _) (fun t ht => ?_) (fun p t ht => ?_)
        · exact (ih t.length (by omega) t (Nat.le_refl _)).1 _ _ (by omega) (by omega)
        · exact (ih t.length (by omega) t (Nat.le_refl _)).2 _ _ (by omega)
    refine ⟨first, ?_⟩
    intro plen f h1
    match f, h1 with
    | f + 1, h1 =>
      rw [readAddrs]
      split
      · simp [NF]
      · rename_i hne
        have : 0 < s.length := List.length_pos_iff.mpr hne
        have hf := first .none f (by omega) (by omega)
        split
        · rename_i a rest ha
          have hc := readAddr_consumes ha
          have hp := NF.applyPrefix plen a
          split
          · have hr := (ih rest.length (by omega) rest (Nat.le_refl _)).2 plen f (by omega)
            split
            · simp [NF]
            · rename_i e he; rw [he] at hr
              intro h'; apply hr; rw [Except.error.injEq] at h' ⊢; exact h'
          · rename_i e he; rw [he] at hp
            intro h'; apply hp; rw [Except.error.injEq] at h' ⊢; exact h'
        · rename_i e he; rw [he] at hf
          intro h'; apply hf; rw [Except.error.injEq] at h' ⊢; exact h'

theorem NF.readAfi (plen : Option Nat) (s : Bits) : NF (readAfi plen s) :=
  (NF.readAddr_aux s.length s (Nat.le_refl _)).1 plen _ (by omega) (by omega)

theorem readAfi_consumes {plen : Option Nat} {s rest : Bits} {a : Addr}
    (h : readAfi plen s = .ok (a, rest)) : rest.length + 16 ≤ s.length := readAddr_consumes h

/-- reading back a written address -/
theorem readAfi_enc {a : Addr} {b : Bits} (h : encAddr a = .ok b) (t : Bits) :
    readAfi .none (b ++ t) = .ok (a.strip, t) := by
  obtain ⟨_, _, h3⟩ := encAddr_rt a b h
  exact h3 _ t (by simp; omega)

theorem encAddr_length8 {a : Addr} {b : Bits} (h : encAddr a = .ok b) : b.length % 8 = 0 :=
  (encAddr_rt a b h).1

theorem applyPrefix_ip (p : Nat) (a : IP) (x : Addr) :
    applyPrefix (.some p) (.ip a) = .ok x ↔
      ∃ n, x = .net n ∧ n.ver = a.ver ∧ n.base = a.val ∧ n.plen = p := by
  constructor
  · intro h
    simp only [applyPrefix] at h
    split at h
    · rename_i n hn
      split at h
      · rename_i hf
        cases h
        exact ⟨n, rfl, (IP.supernet_first_iff a p n).mp ⟨hn, hf⟩⟩
      · cases h
    · cases h
  · rintro ⟨n, rfl, h⟩
    obtain ⟨h1, h2⟩ := (IP.supernet_first_iff a p n).mpr h
    simp [applyPrefix, h1, h2]

theorem applyPrefix_net (n : Net) : applyPrefix (.some n.plen) (.ip n.first) = .ok (.net n) :=
  (applyPrefix_ip _ _ _).mpr ⟨n, rfl, rfl, rfl, rfl⟩

theorem readAfi_ip (plen : Option Nat) (a : IP) (t : Bits) :
    readAfi plen (encIP a ++ t) = Rd.lift (applyPrefix plen (.ip a)) t := readAddr_ip _ _ _ _

theorem readAfi_net (n : Net) (t : Bits) :
    readAfi (.some n.plen) (encIP n.first ++ t) = .ok (.net n, t) := by
  rw [readAfi_ip, applyPrefix_net]; rfl

theorem readAfi_inst_net {iid m : Int} {n : Net} {b : Bits}
    (h : encAddr (.inst iid (.net n) m) = .ok b) (t : Bits) :
    readAfi (.some n.plen) (b ++ t) = .ok (.inst iid (.net n) m, t) := by
  simp only [encAddr, exBind_ok, encUint_iff] at h
  obtain ⟨mb, ⟨hm0, hm1, rfl⟩, ib, ⟨hi0, hi1, rfl⟩, d, hd, c, hc, h⟩ := h
  simp only [exPure, Except.ok.injEq] at h; subst h
  cases hd
  have hm : (encIP n.first).length % 8 = 0 := by
    rw [encIP_length]; cases n.first.ver <;> rfl
  unfold readAfi
  rw [readAddr_lcaf _ _ 2 m.toNat _ c t hc (by decide) (toNat_lt hm0 hm1) (by simp; omega)]
  simp only [lcafFromData, Nat.reduceEqDiff, if_false, if_true]
  rw [runOn_ok (a := .inst iid (.net n) m) (rest := [])]
  · rfl
  · have h1 : readAddr ((natToBits 16 16387 ++ c ++ t).length) .none (encIP n.first) =
        .ok (.ip n.first, []) := by
      have := readAddr_ip ((natToBits 16 16387 ++ c ++ t).length - 1) .none n.first []
      rw [List.append_nil, Nat.sub_add_cancel (by simp; omega)] at this
      rw [this]; rfl
    simp only [instFromData, Rd.bind_apply, readUint_app_int hi0 hi1, h1, applyPrefix_net,
      Rd.lift_ok, Rd.pure_apply, Int.toNat_of_nonneg hi0, Int.toNat_of_nonneg hm0]

theorem mod_two_pow_eq_zero_iff (v k : Nat) :
    v % 2 ^ k = 0 ↔ ∀ i, i < k → v.testBit i = false := by
  constructor
  · intro h i hi
    have := Nat.testBit_mod_two_pow v k i
    rw [h] at this
    simpa [hi] using this.symm
  · intro h
    apply Nat.eq_of_testBit_eq
    intro i
    rw [Nat.testBit_mod_two_pow, Nat.zero_testBit]
    by_cases hi : i < k
    · simp [h i hi]
    · simp [hi]

end PyLisp

import Verif.Proof.Arm.TcL
import Verif.Proof.Arm.KaraAt
import Verif.Proof.Arm.ToomCall
/-!
# The calls of `kara_strd_mem_asm` in `toom_cook_4way_striding_asm`
-/
namespace Saber.Arm
open Polynomial

/-- Coefficient `j` of `∑_m A_m B_{k-m}` modulo `Y^64+1`. -/
noncomputable def dcoef (a b : List R16) (k j : Nat) : R16 := (cpoly a b k).coeff j - (cpoly a b k).coeff (j + 64)

/-- What the values of the variables have to be; `a` and `b` are the operands, rearranged in four blocks. -/
structure ValOk (a b : List R16) (v : Nat → Int) : Prop where
  va : ∀ n, n < 256 → u16 (v (0 + n)) = a.getD n 0
  vb : ∀ n, n < 256 → u16 (v (256 + n)) = b.getD n 0
  vp : ∀ k j, k < 7 → j < 64 → u16 (v (1024 + 128 * k + j)) = dcoef a b k j

theorem neg64_eq (x y : Nat → R16) (k : Nat) (hk : k < 64) : neg64 x y k = (P64 x * P64 y).coeff k - (P64 x * P64 y).coeff (k + 64) := by
  let l (f : Nat → R16) : List R16 := (List.range 64).map f
  have hl (f : Nat → R16) (i : Nat) (hi : i < 64) : (l f).getD i 0 = f i := by
    simp [l, List.getD_eq_getElem?_getD, hi]
  have hP (f : Nat → R16) : P64 f = S (l f) 0 64 := by
    unfold P64 S
    refine Finset.sum_congr rfl fun i hi => ?_
    rw [Nat.zero_add, hl f i (Finset.mem_range.mp hi)]
  have e (L : List Nat) (h : ∀ t ∈ L, t < 4096) : lsum (fun t => x (t % 64) * y (t / 64)) L =
      lsum (fun t => (l x).getD (t % 64) 0 * (l y).getD (t / 64) 0) L := by
    unfold lsum
    congr 1
    refine List.map_congr_left fun t ht => ?_
    have := h t ht
    rw [hl x _ (by omega), hl y _ (by omega)]
  rw [hP, hP, M4.nega64 _ _ _ hk, ← neg_sum _ _ _ hk, neg64, e, e]
  · intro t ht
    simp only [negN, List.mem_map, List.mem_range] at ht
    obtain ⟨i, h1, rfl⟩ := ht
    omega
  · intro t ht
    simp only [negP, List.mem_map, List.mem_range] at ht
    obtain ⟨i, h1, rfl⟩ := ht
    omega

/-- The product of two operands. -/
theorem neg64_coeff {a b : List R16} {v : Nat → Int} (hv : ValOk a b v) {t : Nat} (ht : t < 7) {x y : Nat → R16}
    (hx : ∀ i, i < 64 → ((x i).toNat : Int) ≡ lval v (formOf 64 (0 + i) (evW t)) [ZMOD 65536])
    (hy : ∀ i, i < 64 → ((y i).toNat : Int) ≡ lval v (formOf 64 (256 + i) (evW t)) [ZMOD 65536]) (i : Nat) (hi : i < 64) :
    ((neg64 x y i).toNat : Int) ≡ lval v (formOf 128 (1024 + i) (evP t)) [ZMOD 65536] := by
  have key := P64_prod ht (P64_operand (a := a) ht hv.va hx) (P64_operand (a := b) ht hv.vb hy)
  have hc (k : Nat) (hk : k < 7) : u16 (v (1024 + i + 128 * k)) = dcoef a b k i := by
    rw [show 1024 + i + 128 * k = 1024 + 128 * k + i by omega]
    exact hv.vp k i hk hi
  rw [← u16_modEq, u16_toNat, u16_formOf, evP_length t ht, neg64_eq x y i hi, key]
  simp only [Finset.sum_range_succ, Finset.sum_range_zero, zero_add]
  rw [hc 0 (by decide), hc 1 (by decide), hc 2 (by decide), hc 3 (by decide), hc 4 (by decide), hc 5 (by decide), hc 6 (by decide)]
  simp only [coeff_add, coeff_C_mul, dcoef, fw]
  ring

theorem chkH_ok {m : KM LH} {o i0 : Nat} (h : chkH m o i0 = true) {i : Nat} (hi : i < 64) : ∃ k, KM.rd m o (i0 + i) = some (.half k) := by
  have := List.all_eq_true.mp h i (List.mem_range.mpr hi)
  split at this
  · rename_i k hk
    exact ⟨k, hk⟩
  · cases this

theorem placeP_ok {o p : Nat} (h : placeP o p = true) : p % 2 = 0 ∧ (o = 1 ∨ o = 3 ∧ 60 ≤ p) := by
  unfold placeP at h
  simp only [Bool.and_eq_true, Bool.or_eq_true] at h
  obtain ⟨h1, h2⟩ := h
  refine ⟨Nat.beq_eq.mp h1, h2.imp (fun h => Nat.beq_eq.mp h) fun h => ⟨Nat.beq_eq.mp h.1, Nat.le_of_ble_eq_true h.2⟩⟩

theorem disjP_ok {o p o' p' : Nat} (h : disjP o p o' p' = true) (e : o = o') : p + 128 ≤ p' ∨ p' + 128 ≤ p := by
  unfold disjP at h
  simp only [Bool.or_eq_true, Bool.not_eq_true'] at h
  rcases h with h | h
  · rw [e, Nat.beq_refl] at h
    cases h
  · exact h.imp Nat.le_of_ble_eq_true Nat.le_of_ble_eq_true

theorem defd_ok {R : Sim ldom} {X : Ctx} {v : CVal} {v' : Val LW} (h : R.RV X v v') (hd : defd v' = true) : v ≠ .undef := by
  cases v' with
  | undef => cases hd
  | w y =>
    obtain ⟨x, rfl, -⟩ := h
    simp
  | a x =>
    cases x with
    | ptr o i =>
      have h : v = X.ptr o i := h
      rw [h]
      simp [Ctx.ptr]
    | code n =>
      have h : v = .a (.code n) := h
      rw [h]
      simp
    | opq k =>
      have h : v = X.env k := h
      rw [h]
      exact X.known k

/-- Places of the operands, the result, the temporary array and the stack. -/
def obS (o0 o1 o2 o3 : Nat) : Nat → Nat
  | 0 => o0
  | 1 => o1
  | 2 => o2
  | 3 => o3
  | _ => 3
@[inherit_doc obS] def offS (p0 p1 p2 p3 : Nat) : Nat → Nat
  | 0 => p0 / 2
  | 1 => p1 / 2
  | 2 => p2 / 2
  | 3 => p3 / 2
  | _ => 0

/-- The cells after the call. -/
theorem strdMem_rd {o0 p0 o1 p1 o2 p2 o3 p3 t : Nat} {m m5 : KM LH} (h : strdMem o0 p0 o1 p1 o2 p2 o3 p3 t m = some m5) (o i : Nat) (c : Cell LH) (hc : KM.rd m5 o i = some c) :
    (o = 3 ∧ i < 30 ∧ c = .undef) ∨ (o = o3 ∧ p3 / 2 ≤ i ∧ i < p3 / 2 + 64 ∧ c = .half .unk) ∨
    (o = o2 ∧ p2 / 2 ≤ i ∧ i < p2 / 2 + 64 ∧ c = dstCell t (i - p2 / 2)) ∨ (o = o1 ∧ p1 / 2 ≤ i ∧ i < p1 / 2 + 64 ∧ c = .half .unk) ∨
    (o = o0 ∧ p0 / 2 ≤ i ∧ i < p0 / 2 + 64 ∧ c = .half .unk) ∨
    ((∀ l, l < 5 → ¬ (o = obS o0 o1 o2 o3 l ∧ offS p0 p1 p2 p3 l ≤ i ∧ i < offS p0 p1 p2 p3 l + strdSize l)) ∧ KM.rd m o i = some c) := by
  unfold strdMem at h
  split at h
  case h_2 => cases h
  rename_i m1 e1
  split at h
  case h_2 => cases h
  rename_i m2 e2
  split at h
  case h_2 => cases h
  rename_i m3 e3
  split at h
  case h_2 => cases h
  rename_i m4 e4
  have r1 := (wrs_rd _ _ _ _ _ e1).2 o i
  have r2 := (wrs_rd _ _ _ _ _ e2).2 o i
  have r3 := (wrs_rd _ _ _ _ _ e3).2 o i
  have r4 := (wrs_rd _ _ _ _ _ e4).2 o i
  have r5 := (wrs_rd _ _ _ _ _ h).2 o i
  rw [hc] at r5
  split at r5
  next q => exact .inl ⟨q.1, by omega, Option.some.inj r5⟩
  next q5 =>
  rw [r4] at r5
  split at r5
  next q => exact .inr (.inl ⟨q.1, q.2.1, q.2.2, Option.some.inj r5⟩)
  next q4 =>
  rw [r3] at r5
  split at r5
  next q =>
    have := Option.some.inj r5
    rw [Nat.zero_add] at this
    exact .inr (.inr (.inl ⟨q.1, q.2.1, q.2.2, this⟩))
  next q3 =>
  rw [r2] at r5
  split at r5
  next q => exact .inr (.inr (.inr (.inl ⟨q.1, q.2.1, q.2.2, Option.some.inj r5⟩)))
  next q2 =>
  rw [r1] at r5
  split at r5
  next q => exact .inr (.inr (.inr (.inr (.inl ⟨q.1, q.2.1, q.2.2, Option.some.inj r5⟩))))
  next q1 =>
  refine .inr (.inr (.inr (.inr (.inr ⟨fun l hl => ?_, r5.symm⟩))))
  match l, hl with
  | 0, _ => exact q1
  | 1, _ => exact q2
  | 2, _ => exact q3
  | 3, _ => exact q4
  | 4, _ => exact fun q => q5 ⟨q.1, Nat.zero_le _, q.2.2⟩

theorem wrs_isSome {f : Nat → Cell LH} {o n j i : Nat} {m m1 : KM LH} (h : wrs f o n j i m = some m1) {o' i' : Nat}
    (hs : (KM.rd m1 o' i').isSome) : (KM.rd m o' i').isSome := by
  obtain ⟨h1, h2⟩ := wrs_rd _ _ _ _ _ h
  rw [h2] at hs
  split at hs
  next q =>
    have := h1 (i' - i) (by omega)
    rw [q.1]
    rwa [show i + (i' - i) = i' by omega] at this
  next => exact hs

/-- The stack that the call uses exists before it. -/
theorem strdMem_some {o0 p0 o1 p1 o2 p2 o3 p3 t : Nat} {m m5 : KM LH} (h : strdMem o0 p0 o1 p1 o2 p2 o3 p3 t m = some m5)
    (i : Nat) (hi : i < 30) : (KM.rd m 3 i).isSome := by
  unfold strdMem at h
  split at h
  case h_2 => cases h
  rename_i m1 e1
  split at h
  case h_2 => cases h
  rename_i m2 e2
  split at h
  case h_2 => cases h
  rename_i m3 e3
  split at h
  case h_2 => cases h
  rename_i m4 e4
  have := (wrs_rd _ _ _ _ _ h).1 i hi
  rw [Nat.zero_add] at this
  exact wrs_isSome e1 (wrs_isSome e2 (wrs_isSome e3 (wrs_isSome e4 this)))

theorem strdPre_ok {o0 p0 o1 p1 o2 p2 o3 p3 t : Nat} (h : strdPre o0 p0 o1 p1 o2 p2 o3 p3 t = true) : t < 7 ∧
    (placeP o0 p0 = true ∧ placeP o1 p1 = true ∧ placeP o2 p2 = true ∧ placeP o3 p3 = true) ∧ disjP o0 p0 o1 p1 = true ∧
    disjP o0 p0 o2 p2 = true ∧ disjP o0 p0 o3 p3 = true ∧ disjP o1 p1 o2 p2 = true ∧ disjP o1 p1 o3 p3 = true ∧ disjP o2 p2 o3 p3 = true := by
  unfold strdPre at h
  simp only [Bool.and_eq_true] at h
  obtain ⟨h1, h2, h3, h4, h5, h6, h7, h8, h9, h10, h11⟩ := h
  exact ⟨Nat.lt_succ_of_le (Nat.le_of_ble_eq_true h1), ⟨h2, h3, h4, h5⟩, h6, h7, h8, h9, h10, h11⟩

theorem disj_half {p q : Nat} (hp : p % 2 = 0) (hq : q % 2 = 0) (h : p + 128 ≤ q ∨ q + 128 ≤ p) : p / 2 + 64 ≤ q / 2 ∨ q / 2 + 64 ≤ p / 2 := by
  omega

theorem stk_half {o p : Nat} (l : p % 2 = 0 ∧ (o = 1 ∨ o = 3 ∧ 60 ≤ p)) (h : o = 3) : p / 2 + 64 ≤ 0 ∨ 0 + 30 ≤ p / 2 := by
  omega

set_option maxHeartbeats 1000000 in
/-- A call of `kara_strd_mem_asm`. -/
theorem strdL_sim {a b : List R16} {v : Nat → Int} (hC : Carries v) (hv : ValOk a b v) {env : Nat → CVal} {known : ∀ k, env k ≠ .undef}
    {m0 : conc.M} {f : Nat → Nat → Val LW × Val LW} {s : State conc} {s' s1' : State ldom}
    (h : (lSim v hC).RS (Ctx.plain env known m0) s s') (e : strdL f s' = some s1') :
    ∃ s1 w t n, karaF conc s = some s1 ∧ s1.ip = .w w ∧ ((clo w).toNat : Int) ≡ lval v (formOf 128 1024 (evP t)) [ZMOD 65536] ∧
      s1.lr = .a (.code n) ∧ s1'.ip = (f t n).1 ∧ s1'.lr = (f t n).2 ∧
      (∀ r, r ≠ .ip → r ≠ .lr → (lSim v hC).RV (Ctx.plain env known m0) (s1.get r) (s1'.get r)) ∧
      (lSim v hC).RM (Ctx.plain env known m0) s1.mem s1'.mem ∧ FlR s1.fl s1'.fl := by
  unfold strdL at e
  split at e
  case h_2 => cases e
  rename_i o0 p0 o1 p1 o2 p2 o3 p3 n e0 e1 e2 e3 esp elr
  rw [forceN_eq] at e
  generalize (p0.sub 72).div 128 = t at e
  split at e
  case h_2 => cases e
  rename_i hc
  simp only [Bool.and_eq_true] at hc
  obtain ⟨hpre, hregs, hop0, hop1, hh2, hh3⟩ := hc
  obtain ⟨ht, ⟨l0, l1, l2, l3⟩, d01, d02, d03, d12, d13, d23⟩ := strdPre_ok hpre
  have l0 := placeP_ok l0
  have l1 := placeP_ok l1
  have l2 := placeP_ok l2
  have l3 := placeP_ok l3
  have d01 := disjP_ok d01
  have d02 := disjP_ok d02
  have d03 := disjP_ok d03
  have d12 := disjP_ok d12
  have d13 := disjP_ok d13
  have d23 := disjP_ok d23
  split at e
  case h_2 => cases e
  rename_i m5 ip lr hm5 hf
  simp only [Option.some.injEq] at e
  have mrd (o i : Nat) (c' : Cell LH) (hc : KM.rd s'.mem o i = some c') :
      ∃ c, conc.rd s.mem o i = some c ∧ (lSim v hC).RC (Ctx.plain env known m0) c c' := by
    obtain ⟨-, c, h1, h2⟩ := h.mem.rd o i c' hc
    refine ⟨c, ?_, h2⟩
    rwa [show (Ctx.plain env known m0).off o + i = i from Nat.zero_add i] at h1
  have op {o i0 base : Nat} (hop : chkOp s'.mem o i0 base t = true) : ∃ x : Nat → BitVec 16, ∀ i, i < 64 →
      conc.rd s.mem o (i0 + i) = some (.half (x i)) ∧ ((x i).toNat : Int) ≡ lval v (formOf 64 (base + i) (evW t)) [ZMOD 65536] := by
    have q (i : Nat) (hi : i < 64) : ∃ x : BitVec 16, conc.rd s.mem o (i0 + i) = some (.half x) ∧
        (x.toNat : Int) ≡ lval v (formOf 64 (base + i) (evW t)) [ZMOD 65536] := by
      obtain ⟨c, h1, x, rfl, -, h2⟩ := mrd _ _ _ (chkOp_ok hop hi)
      exact ⟨x, h1, h2⟩
    refine ⟨fun i => if hi : i < 64 then (q i hi).choose else 0, fun i hi => ?_⟩
    have := (q i hi).choose_spec
    simp only [hi, dif_pos]
    exact this
  obtain ⟨x, hx⟩ := op hop0
  obtain ⟨y, hy⟩ := op hop1
  have hz {o i0 : Nat} (hh : chkH s'.mem o i0 = true) (i : Nat) (hi : i < 64) :
      ∃ z : BitVec 16, conc.rd s.mem o (i0 + i) = some (.half z) := by
    obtain ⟨k, hk⟩ := chkH_ok hh hi
    obtain ⟨c, h1, z, rfl, -⟩ := mrd _ _ _ hk
    exact ⟨z, h1⟩
  have hptr {r : Reg} {o k : Nat} (hr : s'.get r = .a (.ptr o (.ofNat k))) : s.get r = .a (.ptr o k) := by
    have := h.reg r
    rw [hr] at this
    refine Eq.trans this ?_
    show Val.a (.ptr o ((k : Int) + 2 * ((0 : Nat) : Int))) = _
    simp
  have hptr2 {r : Reg} {o k : Nat} (hk : k % 2 = 0) (hr : s'.get r = .a (.ptr o (.ofNat k))) :
      s.get r = .a (.ptr o (2 * ((k / 2 : Nat) : Int))) := by
    rw [hptr hr, show (k : Int) = 2 * ((k / 2 : Nat) : Int) by omega]
  unfold strdRegs at hregs
  simp only [Bool.and_eq_true] at hregs
  obtain ⟨g4, g5, g6, g7, g8, g9, g10, g11⟩ := hregs
  obtain ⟨s1, k1, k2, k3, k4, ⟨w, k5, k6⟩, k7, k8, k9⟩ := kara_run_at s (obS o0 o1 o2 o3) (offS p0 p1 p2 p3) n x y
    (hptr2 (r := .r0) l0.1 e0) (hptr2 (r := .r1) l1.1 e1) (hptr2 (r := .r2) l2.1 e2) (hptr2 (r := .r3) l3.1 e3)
    ((hptr (r := .sp) esp).trans (by
      show Val.a (.ptr 3 ((60 : Nat) : Int)) = .a (.ptr 3 (60 + 2 * ((0 : Nat) : Int)))
      simp))
    (by
      have := h.reg .lr
      rw [show s'.get .lr = _ from elr] at this
      exact this)
    (by
      intro r hr
      simp only [List.mem_cons, List.not_mem_nil, or_false] at hr
      rcases hr with rfl | rfl | rfl | rfl | rfl | rfl | rfl | rfl
      · exact defd_ok (h.reg .r4) g4
      · exact defd_ok (h.reg .r5) g5
      · exact defd_ok (h.reg .r6) g6
      · exact defd_ok (h.reg .r7) g7
      · exact defd_ok (h.reg .r8) g8
      · exact defd_ok (h.reg .r9) g9
      · exact defd_ok (h.reg .sl) g10
      · exact defd_ok (h.reg .fp) g11)
    (by
      intro o o' h1 h2 h3
      match o, o', h1, h2 with
      | 0, 1, _, _ => exact disj_half l0.1 l1.1 (d01 h3)
      | 0, 2, _, _ => exact disj_half l0.1 l2.1 (d02 h3)
      | 0, 3, _, _ => exact disj_half l0.1 l3.1 (d03 h3)
      | 1, 2, _, _ => exact disj_half l1.1 l2.1 (d12 h3)
      | 1, 3, _, _ => exact disj_half l1.1 l3.1 (d13 h3)
      | 2, 3, _, _ => exact disj_half l2.1 l3.1 (d23 h3)
      | 0, 4, _, _ => exact stk_half l0 h3
      | 1, 4, _, _ => exact stk_half l1 h3
      | 2, 4, _, _ => exact stk_half l2 h3
      | 3, 4, _, _ => exact stk_half l3 h3
      | n + 4, o', h1, h2 => exact absurd h1 (by clear * - h2; omega))
    (fun i hi => (hx i hi).1) (fun i hi => (hy i hi).1) (hz hh2) (hz hh3)
    (fun i hi => by
      obtain ⟨c', hc'⟩ := Option.isSome_iff_exists.mp (strdMem_some hm5 i hi)
      obtain ⟨c, h1, -⟩ := mrd _ _ _ hc'
      show (conc.rd s.mem 3 (0 + i)).isSome
      rw [Nat.zero_add, h1]
      rfl)
  have hsome (o i : Nat) (hi : (conc.rd s.mem o i).isSome) : ∃ c, conc.rd s1.mem o i = some c :=
    Option.isSome_iff_exists.mp (rd_isSome_of_len k2 hi)
  subst e
  have keep {r : Reg} (hr : r ∈ [Reg.r0, .r1, .r3, .r4, .r5, .r6, .r7, .r8, .r9, .sl, .fp, .sp, .lr]) :
      (lSim v hC).RV (Ctx.plain env known m0) (s1.get r) (s'.get r) := by
    rw [k3 r hr]
    exact h.reg r
  refine ⟨s1, w, t, n, k1, k5, ?_, ?_, (congrArg Prod.fst hf).symm, (congrArg Prod.snd hf).symm, fun r hr1 hr2 => ?_,
    ⟨k2.trans h.mem.len, fun o i c' hc => ?_, fun p j hpj => absurd (Nat.zero_add j) (hpj p j trivial rfl)⟩,
    ⟨fun b hb => (nomatch hb), fun b hb => (nomatch hb)⟩⟩
  · rw [k6]
    exact neg64_coeff hv ht (fun i hi => (hx i hi).2) (fun i hi => (hy i hi).2) 0 (by decide)
  · have := keep (r := .lr) (by simp)
    rw [show s'.get .lr = _ from elr] at this
    exact this
  · cases r
    case ip => exact absurd rfl hr1
    case lr => exact absurd rfl hr2
    case r0 => have := keep (r := .r0) (by simp); rw [show s'.get .r0 = _ from e0] at this; exact this
    case r1 => have := keep (r := .r1) (by simp); rw [show s'.get .r1 = _ from e1] at this; exact this
    case r2 => trivial
    case r3 => have := keep (r := .r3) (by simp); rw [show s'.get .r3 = _ from e3] at this; exact this
    case sp => have := keep (r := .sp) (by simp); rw [show s'.get .sp = _ from esp] at this; exact this
    case pc => exact k4
    case r4 => exact keep (r := .r4) (by simp)
    case r5 => exact keep (r := .r5) (by simp)
    case r6 => exact keep (r := .r6) (by simp)
    case r7 => exact keep (r := .r7) (by simp)
    case r8 => exact keep (r := .r8) (by simp)
    case r9 => exact keep (r := .r9) (by simp)
    case sl => exact keep (r := .sl) (by simp)
    case fp => exact keep (r := .fp) (by simp)
  · refine ⟨trivial, ?_⟩
    rw [show (Ctx.plain env known m0).off o + i = i from Nat.zero_add i, show (Ctx.plain env known m0).ob o = o from rfl]
    have unk (l : Nat) (hl : l ∈ [0, 1, 3]) (ho : o = obS o0 o1 o2 o3 l) (hi1 : offS p0 p1 p2 p3 l ≤ i) (hi2 : i < offS p0 p1 p2 p3 l + 64) :
        ∃ c, conc.rd s1.mem o i = some c ∧ (lSim v hC).RC (Ctx.plain env known m0) c (.half .unk) := by
      obtain ⟨z, hz⟩ := k8 l hl (i - offS p0 p1 p2 p3 l) (by omega)
      rw [← ho, show offS p0 p1 p2 p3 l + (i - offS p0 p1 p2 p3 l) = i by omega] at hz
      exact ⟨_, hz, z, rfl, trivial⟩
    rcases strdMem_rd hm5 o i c' hc with ⟨rfl, hi, rfl⟩ | ⟨ho, hi1, hi2, rfl⟩ | ⟨ho, hi1, hi2, rfl⟩ | ⟨ho, hi1, hi2, rfl⟩ |
      ⟨ho, hi1, hi2, rfl⟩ | ⟨hn, hr⟩
    · obtain ⟨c', hc'⟩ := Option.isSome_iff_exists.mp (strdMem_some hm5 i hi)
      obtain ⟨c, h1, -⟩ := mrd _ _ _ hc'
      obtain ⟨c, hc⟩ := hsome 3 i (by rw [h1]; rfl)
      exact ⟨c, hc, by cases c <;> trivial⟩
    · exact unk 3 (by simp) ho hi1 hi2
    · have := k7 (i - p2 / 2) (by omega)
      have this : conc.rd s1.mem o2 (p2 / 2 + (i - p2 / 2)) = some (.half (neg64 x y (i - p2 / 2))) := this
      rw [← ho, show p2 / 2 + (i - p2 / 2) = i by omega] at this
      rw [dstCell_eq]
      refine ⟨_, this, _, rfl, le_refl _, ?_⟩
      exact neg64_coeff hv ht (fun i hi => (hx i hi).2) (fun i hi => (hy i hi).2) _ (by omega)
    · exact unk 1 (by simp) ho hi1 hi2
    · exact unk 0 (by simp) ho hi1 hi2
    · obtain ⟨c, q1, q2⟩ := mrd o i c' hr
      exact ⟨c, (k9 o i hn).trans q1, q2⟩

theorem strdL0_sim {a b : List R16} {v : Nat → Int} (hC : Carries v) (hv : ValOk a b v) {env : Nat → CVal} {known : ∀ k, env k ≠ .undef}
    {m0 : conc.M} : FSim (lSim v hC) (Ctx.plain env known m0) (karaF conc) strdL0 := by
  intro s s' s1' h e
  obtain ⟨s1, w, t, n, h1, -, -, h2, h3, h4, h5, h6, h7⟩ := strdL_sim hC hv h e
  refine ⟨s1, h1, ⟨fun r => ?_, h6, h7⟩⟩
  by_cases c1 : r = .ip
  · subst c1
    show Sim.RV _ _ _ s1'.ip
    rw [h3]
    trivial
  · by_cases c2 : r = .lr
    · subst c2
      show Sim.RV _ _ s1.lr s1'.lr
      rw [h4, h2]
      rfl
    · exact h5 r c1 c2

end Saber.Arm

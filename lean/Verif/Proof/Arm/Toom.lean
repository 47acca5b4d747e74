import Verif.Proof.Arm.ToomCall
/-!
# The assembly of `m4-tc4kara` multiplies in `Z[X]/(X^256+1)`
-/
namespace Saber.Arm
open Polynomial

/-! ### The result -/

theorem Deg.cpoly (a b : List R16) (k : Nat) : Deg (cpoly a b k) 127 := by
  have d (i j : Nat) : Deg (S a i 64 * S b j 64) 127 := (Deg.S a i 64).mul (Deg.S b j 64)
  have z : Deg (0 : R16[X]) 127 := fun _ _ => coeff_zero _
  match k with
  | 0 => exact d 0 0
  | 1 => exact (d 0 64).add (d 64 0)
  | 2 => exact ((d 0 128).add (d 64 64)).add (d 128 0)
  | 3 => exact (((d 0 192).add (d 64 128)).add (d 128 64)).add (d 192 0)
  | 4 => exact ((d 64 192).add (d 128 128)).add (d 192 64)
  | 5 => exact (d 128 192).add (d 192 128)
  | 6 => exact d 192 192
  | _ + 7 => exact z

theorem S_blocks (a : List R16) : S a 0 256 = S a 0 64 + X ^ 64 * S a 64 64 + X ^ 128 * S a 128 64 + X ^ 192 * S a 192 64 := by
  rw [show 256 = 64 + (64 + (64 + 64)) from rfl, S_add, S_add, S_add]
  simp only [Nat.zero_add, Nat.reduceAdd]
  ring

theorem prod_blocks (a b : List R16) : S a 0 256 * S b 0 256 = ∑ k ∈ Finset.range 7, X ^ (64 * k) * cpoly a b k := by
  rw [S_blocks a, S_blocks b]
  simp only [Finset.sum_range_succ, Finset.sum_range_zero, cpoly]
  ring

theorem prod_block_coeff (a b : List R16) (q r : Nat) (hq : q < 8) (hr : r < 64) : (S a 0 256 * S b 0 256).coeff (64 * q + r) =
    (cpoly a b q).coeff r + if 1 ≤ q then (cpoly a b (q - 1)).coeff (r + 64) else 0 := by
  have z (k j : Nat) (hj : 127 ≤ j) : (cpoly a b k).coeff j = 0 := Deg.cpoly a b k j hj
  have t (k : Nat) : (X ^ (64 * k) * cpoly a b k).coeff (64 * q + r) =
      (if q = k then (cpoly a b k).coeff r else 0) + if q = k + 1 then (cpoly a b k).coeff (r + 64) else 0 := by
    rw [coeff_X_pow_mul']
    by_cases h1 : q = k
    · subst h1
      rw [if_pos (by omega), if_pos rfl, if_neg (by omega), add_zero]
      congr 1
      omega
    · rw [if_neg h1, zero_add]
      by_cases h2 : q = k + 1
      · subst h2
        rw [if_pos (by omega), if_pos rfl]
        congr 1
        omega
      · rw [if_neg h2]
        split
        · exact z _ _ (by omega)
        · rfl
  rw [prod_blocks, finsetSum_coeff, Finset.sum_congr rfl (fun k _ => t k), Finset.sum_add_distrib, Finset.sum_ite_eq]
  congr 1
  · split
    · rfl
    · rename_i h
      rw [Finset.mem_range] at h
      rw [show q = 7 by omega]
      exact (coeff_zero _).symm
  · cases q with
    | zero => simp
    | succ q =>
      simp only [Nat.add_right_cancel_iff, Nat.add_sub_cancel]
      rw [Finset.sum_ite_eq, if_pos (Finset.mem_range.mpr (by omega)), if_pos (by omega)]

theorem u16_lval_add (v : Nat → Int) (f g : LF) : u16 (lval v (f.add g)) = u16 (lval v f) + u16 (lval v g) := by
  rw [← u16_add, u16_modEq]
  exact lval_add f g

theorem u16_single (v : Nat → Int) (n c : Nat) : u16 (lval v [(n, c)]) = BitVec.ofNat 16 c * u16 (v n) := by
  rw [lval_cons, lval_nil, Int.add_zero, u16_mul]
  rfl

theorem resForm_val (a b res : List R16) (i : Nat) (hi : i < 256) : u16 (lval (valT a b res) (resForm i)) =
    res.getD i 0 + ((S a 0 256 * S b 0 256).coeff i - (S a 0 256 * S b 0 256).coeff (i + 256)) := by
  have hc (k j : Nat) (hk : k < 7) (hj : j < 128) : u16 (valT a b res (1024 + 128 * k + j)) = (cpoly a b k).coeff j := by
    rw [u16_valT (by omega), val0, if_neg (by omega), if_neg (by omega), if_neg (by omega),
      show (1024 + 128 * k + j - 1024) / 128 = k by omega, show (1024 + 128 * k + j - 1024) % 128 = j by omega]
  have hres : u16 (valT a b res (512 + i)) = res.getD i 0 := by
    rw [u16_valT (by omega), val0, if_neg (by omega), if_neg (by omega), if_pos (by omega), Nat.add_sub_cancel_left]
  have z (k j : Nat) (hj : 127 ≤ j) : (cpoly a b k).coeff j = 0 := Deg.cpoly a b k j hj
  have h1 : BitVec.ofNat 16 1 = (1 : R16) := rfl
  have h2 : BitVec.ofNat 16 65535 = (-1 : R16) := by decide
  have hq : i / 64 < 4 := by omega
  have hr : i % 64 < 64 := by omega
  have p1 := prod_block_coeff a b (i / 64) (i % 64) (by omega) hr
  have p2 := prod_block_coeff a b (i / 64 + 4) (i % 64) (by omega) hr
  rw [show 64 * (i / 64) + i % 64 = i by omega] at p1
  rw [show 64 * (i / 64 + 4) + i % 64 = i + 256 by omega, if_pos (by omega), show i / 64 + 4 - 1 = i / 64 + 3 by omega] at p2
  rw [p1, p2]
  unfold resForm
  simp only [u16_lval_add]
  generalize i / 64 = q at *
  generalize i % 64 = r at *
  rw [u16_single, u16_single, hres, hc q r (by omega) (by omega), h1, one_mul, one_mul]
  have e3 : u16 (lval (valT a b res) (if 1 ≤ q ∧ r < 63 then [(1024 + 128 * (q - 1) + r + 64, 1)] else [])) =
      if 1 ≤ q then (cpoly a b (q - 1)).coeff (r + 64) else 0 := by
    by_cases hq1 : 1 ≤ q
    · rw [if_pos hq1]
      by_cases hr1 : r < 63
      · rw [if_pos ⟨hq1, hr1⟩, u16_single, h1, one_mul, Nat.add_assoc, hc _ _ (by omega) (by omega)]
      · rw [if_neg (by omega), z _ _ (by omega)]
        exact u16_zero
    · rw [if_neg hq1, if_neg (by omega)]
      exact u16_zero
  have e4 : u16 (lval (valT a b res) (if q ≤ 2 then [(1024 + 128 * (q + 4) + r, 65535)] else [])) = -(cpoly a b (q + 4)).coeff r := by
    by_cases hq2 : q ≤ 2
    · rw [if_pos hq2, u16_single, h2, hc _ _ (by omega) (by omega), neg_one_mul]
    · rw [if_neg hq2, show q = 3 by omega]
      rw [show (cpoly a b (3 + 4)).coeff r = 0 from coeff_zero r, neg_zero]
      exact u16_zero
  have e5 : u16 (lval (valT a b res) (if q ≤ 3 ∧ r < 63 then [(1024 + 128 * (q + 3) + r + 64, 65535)] else [])) =
      -(cpoly a b (q + 3)).coeff (r + 64) := by
    by_cases hr1 : r < 63
    · rw [if_pos ⟨by omega, hr1⟩, u16_single, h2, Nat.add_assoc, hc _ _ (by omega) (by omega), neg_one_mul]
    · rw [if_neg (by omega), z _ _ (by omega), neg_zero]
      exact u16_zero
  rw [e3, e4, e5]
  ring

theorem chkRes_ok {a b res : List R16} {i : Nat} {h : BitVec 16} {k : LH} (hc : chkRes i k = true)
    (hk : LRH (valT a b res) h k) :
    (h.toNat : Int) ≡ lval (valT a b res) (resForm i) [ZMOD 8192] := by
  cases k <;> simp only [chkRes, Bool.and_eq_true, Bool.false_eq_true] at hc
  rename_i k l
  obtain ⟨h1, h2⟩ := hc
  have h1 : 13 ≤ k := Nat.le_of_ble_eq_true h1
  have h2 := LF.eq_eq h2
  have h3 : (h.toNat : Int) ≡ lval (valT a b res) l [ZMOD 2 ^ 13] := hk.2.of_dvd (pow_dvd_pow _ h1)
  have h4 := (lval_add (v := valT a b res) (l.scale 8) []).symm
  rw [h2, lval_nil, Int.add_zero] at h4
  have h5 := ((lval_scale (v := valT a b res) 8 l).symm.trans h4).trans (lval_scale 8 (resForm i))
  refine (show (h.toNat : Int) ≡ lval (valT a b res) l [ZMOD 8192] from h3).trans ?_
  have h5 : ((8 : Nat) : Int) * lval (valT a b res) l % 65536 = ((8 : Nat) : Int) * lval (valT a b res) (resForm i) % 65536 := h5
  show _ % _ = _ % _
  push_cast at h5
  omega

theorem chkVar_ok {v : Nat → Int} {base i : Nat} {h : BitVec 16} {k : LH} (hc : chkVar base i k = true) (hk : LRH v h k) :
    (h.toNat : Int) ≡ v (base + i) [ZMOD 65536] := by
  cases k <;> simp only [chkVar, Bool.and_eq_true, Bool.false_eq_true] at hc
  rename_i k l
  obtain ⟨h1, h2⟩ := hc
  have h1 : k = 16 := Nat.beq_eq.mp h1
  subst h1
  have := hk.2
  rw [LF.eq_eq h2, lval_cons, lval_nil, Int.add_zero] at this
  simpa using this

/-! ### The run -/

theorem length4 {α : Type} {l : List α} (h : l.length = 4) : ∃ a b c d, l = [a, b, c, d] := by
  match l, h with
  | [a, b, c, d], _ => exact ⟨a, b, c, d, rfl⟩

/-- Registers by number, with `r3`. -/
def regEnv3 (g : Reg → CVal) : Nat → CVal
  | 3 => g .r3
  | k => regEnv g k

theorem toNat_inj {x y : BitVec 16} (h : (x.toNat : Int) ≡ y.toNat [ZMOD 65536]) : x = y := by
  rw [← u16_toNat x, ← u16_toNat y]
  exact u16_modEq.mpr h

theorem list_ext {a b : List (BitVec 16)} {n : Nat} (ha : a.length = n) (hb : b.length = n) (h : ∀ i, i < n → a.getD i 0 = b.getD i 0) :
    a = b := by
  apply List.ext_getElem (ha.trans hb.symm)
  intro i h1 h2
  have := h i (by omega)
  rwa [List.getD_eq_getElem?_getD, List.getD_eq_getElem?_getD, List.getElem?_eq_getElem h1, List.getElem?_eq_getElem h2] at this

open Spec in
/-- The complete behaviour of `toom_cook_4way_mem_asm`. -/
theorem toom_run (g : Reg → CVal) (hg : ∀ r, g r ≠ .undef) (a b res : List (BitVec 16)) (stk : List (Cell (BitVec 16)))
    (ha : a.length = 256) (hb : b.length = 256) (hr : res.length = 256) (hs : stk.length = 1776) :
    ∃ s res' stk', toomF conc (toomStart g a b res stk) = some s ∧ s.mem = [halves a, halves b, halves res', stk'] ∧
      res'.length = 256 ∧ EqMod 8192 (toP res') (fun k => toP res k + negMul (toP a) (toP b) k) ∧
      s.pc = .a (.code 99) ∧ s.sp = .a (.ptr 3 3552) ∧
      s.r4 = g .r4 ∧ s.r5 = g .r5 ∧ s.r6 = g .r6 ∧ s.r7 = g .r7 ∧ s.r8 = g .r8 ∧ s.r9 = g .r9 ∧ s.sl = g .sl ∧ s.fp = g .fp := by
  have hc := toomCheck_ok
  unfold toomCheck at hc
  cases hk : toomL toomK with
  | none => simp [hk] at hc
  | some s' =>
  simp only [hk] at hc
  let v := valT a b res
  let R : Sim ldom := lSim v (valT_carries a b res)
  let m0 : conc.M := (toomStart g a b res stk).mem
  have hkn (k : Nat) : regEnv3 g k ≠ .undef := by
    unfold regEnv3
    split
    · exact hg _
    · exact regEnv_known hg _
  let X := Ctx.plain (regEnv3 g) hkn m0
  have arr {c : List (BitVec 16)} {ob base : Nat} (h1 : (cmem m0)[ob]? = some (halves c)) (hn : c.length = 256)
      (hf : ∀ i, i < 256 → v (base + i) = (c.getD i 0).toNat) {i : Nat} (hi : i < 256) :
      X.dom ob i ∧ ∃ d, conc.rd X.m0 (X.ob ob) (X.off ob + i) = some d ∧ R.RC X d (.half (.lin 16 [(base + i, 1)])) := by
    refine ⟨trivial, .half (c.getD i 0), ?_, _, rfl, le_refl _, ?_⟩
    · show conc.rd m0 ob (0 + i) = _
      rw [conc_rd h1, Nat.zero_add]
      exact getElem?_halves (by omega)
    · apply ModEq.of_eq
      rw [lval_cons, lval_nil, hf i hi]
      simp
  have va (i : Nat) (hi : i < 256) : v (0 + i) = (a.getD i 0).toNat := by
    rw [Nat.zero_add]
    show valT a b res i = _
    rw [valT_lt (by omega), val0, if_pos hi]
  have vb (i : Nat) (hi : i < 256) : v (256 + i) = (b.getD i 0).toNat := by
    show valT a b res (256 + i) = _
    rw [valT_lt (by omega), val0, if_neg (by omega), if_pos (by omega), Nat.add_sub_cancel_left]
  have vr (i : Nat) (hi : i < 256) : v (512 + i) = (res.getD i 0).toNat := by
    show valT a b res (512 + i) = _
    rw [valT_lt (by omega), val0, if_neg (by omega), if_neg (by omega), if_pos (by omega), Nat.add_sub_cancel_left]
  have hm : R.RM X m0 toomK.mem := by
    refine ⟨rfl, fun ob i c' hcc => ?_, fun _ _ _ => rfl⟩
    obtain ⟨p, hp, hi, rfl⟩ := rd_kmemOf (H := LH) (l := toomObj) hcc
    match ob with
    | 0 =>
      cases hp
      have := arr (base := 0) (ob := 0) rfl ha va hi
      rw [Nat.zero_add] at this
      exact this
    | 1 => cases hp; exact arr (base := 256) (ob := 1) rfl hb vb hi
    | 2 => cases hp; exact arr (base := 512) (ob := 2) rfl hr vr hi
    | 3 =>
      cases hp
      have hi : i < 1776 := hi
      refine ⟨trivial, stk[i], ?_, ?_⟩
      · show conc.rd m0 3 (0 + i) = _
        rw [conc_rd (c := stk) rfl, Nat.zero_add]
        exact List.getElem?_eq_getElem (by omega)
      · cases stk[i] <;> trivial
    | n + 4 => simp [toomObj] at hp
  have h0 : R.RS X (toomStart g a b res stk) toomK := by
    refine ⟨fun r => ?_, hm, FlR.refl _⟩
    cases r <;> try rfl
    show (Val.a _ : CVal) = _
    rw [hs]
    rfl
  have hF : ∀ k, FSim R X ((fun | 0 => mulF conc | 1 => memset0 | _ => fun _ => none : Nat → State conc → Option (State conc)) k)
      ((fun | 0 => karaL | 1 => memset0 | _ => fun _ => none : Nat → State ldom → Option (State ldom)) k) := by
    intro k
    match k with
    | 0 => exact karaL_sim
    | 1 => exact memset0_sim
    | n + 2 => exact fsim_none _
  obtain ⟨s, e1, e2⟩ := run_sim hF 0 toom_cook_4way_mem_asm _ _ _ h0 hk
  unfold toomFinal at hc
  simp only [Bool.and_eq_true] at hc
  obtain ⟨c0, c1, c2, c3, c4, c5⟩ := hc
  have get {c : List (BitVec 16)} {ob : Nat} {f : Nat → LH → Bool} (h1 : (cmem m0)[ob]? = some (halves c)) (hn : c.length = 256)
      (hf : KM.allH s'.mem ob f 256 = true) := array_of e2.mem.len (ob := ob) (n := 256) h1 (by rw [length_halves, hn])
        (P := fun i x => ∃ k, f i k = true ∧ R.RH x k) fun i hi => by
          obtain ⟨k, h1, h2⟩ := KM.allH_rd hf hi
          obtain ⟨-, c, h3, x, rfl, h4⟩ := e2.mem.rd ob i _ h1
          rw [show X.off ob + i = i from Nat.zero_add i] at h3
          exact ⟨x, h3, k, h2, h4⟩
  obtain ⟨a', n0, l0, ha'⟩ := get rfl ha c0
  obtain ⟨b', n1, l1, hb'⟩ := get rfl hb c1
  obtain ⟨r', n2, l2, hr'⟩ := get rfl hr c2
  have hlen : (cmem s.mem).length = 4 := by
    have := congrArg List.length e2.mem.len
    exact (List.length_map (as := cmem s.mem) List.length).symm.trans this
  obtain ⟨x0, x1, x2, x3, hx⟩ := length4 hlen
  rw [hx] at n0 n1 n2
  simp only [List.getElem?_cons_zero, List.getElem?_cons_succ, Option.some.injEq] at n0 n1 n2
  subst n0 n1 n2
  have ea : a' = a := list_ext l0 ha fun i hi => by
    obtain ⟨k, f1, f2⟩ := ha' i hi
    have := chkVar_ok f1 f2
    rw [va i hi] at this
    exact toNat_inj this
  have eb : b' = b := list_ext l1 hb fun i hi => by
    obtain ⟨k, f1, f2⟩ := hb' i hi
    have := chkVar_ok f1 f2
    rw [vb i hi] at this
    exact toNat_inj this
  subst ea eb
  refine ⟨s, r', x3, e1, hx, l2, fun k => ?_, ?_, ?_, ?_⟩
  · obtain ⟨kk, f1, f2⟩ := hr' k.val k.isLt
    have f3 := chkRes_ok f1 f2
    have f4 := resForm_val a' b' res k.val k.isLt
    have f5 := negacyclic_coeff a' b' k
    rw [coeff_map, coeff_map, ← map_sub] at f5
    have hrd (x : R16) : red x = ((x.toNat : Int) : ZMod 8192) := by simp [red]
    have hru (x : Int) : red (u16 x) = (x : ZMod 8192) := by
      rw [hrd, ZMod.intCast_eq_intCast_iff']
      have := u16_spec x
      simp only [prom] at this
      omega
    refine (ZMod.intCast_eq_intCast_iff' _ _ 8192).1 ?_
    push_cast
    rw [← f5]
    have f3 : (((r'.getD k.val 0).toNat : Int) : ZMod 8192) = ((lval (valT a' b' res) (resForm k.val) : Int) : ZMod 8192) :=
      (ZMod.intCast_eq_intCast_iff' _ _ 8192).2 f3
    simp only [toP]
    rw [f3, ← hru, f4, map_add, ← hrd]
  · have := e2.reg .pc
    rw [show s'.get .pc = _ from isC_eq c4] at this
    exact this
  · have := e2.reg .sp
    rw [show s'.get .sp = _ from isP_eq c3] at this
    exact this
  · unfold saved at c5
    simp only [Bool.and_eq_true] at c5
    obtain ⟨⟨⟨⟨⟨⟨⟨h4, h5⟩, h6⟩, h7⟩, h8⟩, h9⟩, h10⟩, h11⟩ := c5
    have key (r : Reg) (n : Nat) (hr : isO (s'.get r) n = true) : s.get r = regEnv3 g n := by
      have := e2.reg r
      rw [isO_eq hr] at this
      exact this
    exact ⟨key .r4 4 h4, key .r5 5 h5, key .r6 6 h6, key .r7 7 h7, key .r8 8 h8, key .r9 9 h9, key .sl 10 h10, key .fp 11 h11⟩

open M4 in
/-- The assembly meets the contract of the C code. -/
theorem toom_asm_correct (g : Reg → CVal) (hg : ∀ r, g r ≠ .undef) (stk : List (Cell (BitVec 16))) (hs : stk.length = 1776) :
    (toom_asm g stk).Correct := by
  intro a b res ha hb hr
  obtain ⟨s, res', stk', h1, h2, l2, h3, -⟩ := toom_run g hg a b res stk ha hb hr hs
  refine ⟨b, res', ?_, hb, l2, h3⟩
  unfold toom_asm
  rw [h1]
  simp only [h2, unhalves_halves]

end Saber.Arm

import Verif.Proof.Arm.TcCall
import Verif.Proof.Arm.Toom
import Verif.Proof.M0.PolyMul
/-!
# What `toom_cook_4way_striding_asm` computes
-/
namespace Saber.Arm
open Polynomial Spec M4

/-! ### The variables -/

/-- The values of all variables, from those of the variables other than the lost bits. -/
def valG (w : Nat → R16) (n : Nat) : Int :=
  if n < 8192 then (w n).toNat
  else if n < 9216 then -(lval (fun n => (w n).toNat) (diffF (n - 8192)) / 65536)
  else -(lval (fun n => (w n).toNat) (diffF (n - 9216)) / 65536) + lval (fun n => (w n).toNat) (diffF (n - 9216)) % 65536 / 32768

theorem valG_lt {w : Nat → R16} {n : Nat} (h : n < 8192) : valG w n = (w n).toNat := if_pos h

theorem valG_diffF {w : Nat → R16} {i : Nat} (hi : i < 128) : lval (valG w) (diffF i) = lval (fun n => (w n).toNat) (diffF i) := by
  simp only [diffF, lval_cons, lval_nil]
  rw [valG_lt (show Nat.add 1152 i < 8192 by show 1152 + i < 8192; omega), valG_lt (show Nat.add 1408 i < 8192 by show 1408 + i < 8192; omega),
    valG_lt (show Nat.add 1664 i < 8192 by show 1664 + i < 8192; omega)]

theorem valG_carries (w : Nat → R16) : Carries (valG w) where
  lsr i hi := by
    rw [valG_diffF hi, valG, if_neg (by omega), if_pos (by omega), Nat.add_sub_cancel_left]
  asr i hi := by
    rw [valG_diffF hi, valG, if_neg (by omega), if_neg (by omega), Nat.add_sub_cancel_left]

theorem u16_valG {w : Nat → R16} {n : Nat} (h : n < 8192) : u16 (valG w n) = w n := by
  rw [valG_lt h, u16_toNat]

/-- The coefficients of `a`, with those at `4j+1` and `4j+2` exchanged. -/
def swL (a : List R16) : List R16 := (List.range 256).map fun i => a.getD (4 * (i / 4) + swp (i % 4)) 0

/-- The same in four blocks. -/
def blkL (a : List R16) : List R16 := (List.range 256).map fun n => a.getD (4 * (n % 64) + swp (n / 64)) 0

theorem swp_swp (t : Nat) : swp (swp t) = t := by
  unfold swp
  split <;> rename_i h <;> split at h <;> simp_all

theorem swp_lt {t : Nat} (h : t < 4) : swp t < 4 := by
  unfold swp
  split <;> omega

theorem range_getD (f : Nat → R16) {i : Nat} (hi : i < 256) : ((List.range 256).map f).getD i 0 = f i := by
  simp [List.getD_eq_getElem?_getD, hi]

theorem blkL_tcIx (a : List R16) {i : Nat} (hi : i < 256) : tcIx i < 256 ∧ (blkL a).getD (tcIx i) 0 = a.getD i 0 := by
  have h := swp_lt (show i % 4 < 4 by omega)
  have h1 : tcIx i < 256 := by unfold tcIx; omega
  refine ⟨h1, ?_⟩
  rw [blkL, range_getD _ h1]
  congr 1
  rw [show tcIx i / 64 = swp (i % 4) by unfold tcIx; omega, show tcIx i % 64 = i / 4 by unfold tcIx; omega, swp_swp]
  omega

theorem blkL_S (a : List R16) {t : Nat} (ht : t < 4) : S (blkL a) (64 * t) 64 = S4 (swL a) t := by
  unfold S S4
  refine Finset.sum_congr rfl fun j hj => ?_
  have hj := Finset.mem_range.mp hj
  rw [blkL, swL, range_getD _ (by omega), range_getD _ (by omega), show (64 * t + j) % 64 = j by omega, show (64 * t + j) / 64 = t by omega,
    show (4 * j + t) / 4 = j by omega, show (4 * j + t) % 4 = t by omega]

/-- The values of the variables other than the lost bits. -/
noncomputable def tcW (a b res : List R16) (ra : BitVec 32) (u : R16) (n : Nat) : R16 :=
  if n < 256 then (blkL a).getD n 0
  else if n < 512 then (blkL b).getD (n - 256) 0
  else if n < 1024 then res.getD (n - 512) 0
  else if n < 1920 then dcoef (blkL a) (blkL b) ((n - 1024) / 128) ((n - 1024) % 128)
  else if n = 2000 then clo ra
  else if n = 2001 then chi ra
  else u

theorem tcW_a (a b res : List R16) (ra : BitVec 32) (u : R16) {n : Nat} (h : n < 256) : tcW a b res ra u n = (blkL a).getD n 0 := if_pos h
theorem tcW_b (a b res : List R16) (ra : BitVec 32) (u : R16) {n : Nat} (h : n < 256) : tcW a b res ra u (256 + n) = (blkL b).getD n 0 := by
  rw [tcW, if_neg (by omega), if_pos (by omega), Nat.add_sub_cancel_left]
theorem tcW_r (a b res : List R16) (ra : BitVec 32) (u : R16) {n : Nat} (h : n < 256) : tcW a b res ra u (512 + n) = res.getD n 0 := by
  rw [tcW, if_neg (by omega), if_neg (by omega), if_pos (by omega), Nat.add_sub_cancel_left]
theorem tcW_p (a b res : List R16) (ra : BitVec 32) (u : R16) {k j : Nat} (hk : k < 7) (hj : j < 64) :
    tcW a b res ra u (1024 + 128 * k + j) = dcoef (blkL a) (blkL b) k j := by
  rw [tcW, if_neg (by omega), if_neg (by omega), if_neg (by omega), if_pos (by omega), show (1024 + 128 * k + j - 1024) / 128 = k by omega,
    show (1024 + 128 * k + j - 1024) % 128 = j by omega]

theorem tcW_ok (a b res : List R16) (ra : BitVec 32) (u : R16) : ValOk (blkL a) (blkL b) (valG (tcW a b res ra u)) where
  va n hn := by rw [Nat.zero_add, u16_valG (by omega), tcW_a _ _ _ _ _ hn]
  vb n hn := by rw [u16_valG (by omega), tcW_b _ _ _ _ _ hn]
  vp k j hk hj := by rw [u16_valG (by omega), tcW_p _ _ _ _ _ hk hj]

/-! ### The result -/

/-- What the code adds to coefficient `i` besides the product. -/
noncomputable def tcX (a b : List R16) (ra : BitVec 32) (u : R16) (i : Nat) : R16 :=
  if i = 0 then clo ra else if i = 1 then chi ra else if i = 2 then dcoef (blkL a) (blkL b) 0 0 else if i % 4 = 3 ∧ i ≠ 3 then u else 0

theorem sw_prod (a b : List R16) (i : Nat) (hi : i < 256) :
    (S (swL a) 0 256 * S (swL b) 0 256).coeff i - (S (swL a) 0 256 * S (swL b) 0 256).coeff (i + 256) =
    dcoef (blkL a) (blkL b) (i % 4) (i / 4) + if i % 4 < 3 then (if i / 4 = 0 then -dcoef (blkL a) (blkL b) (i % 4 + 4) 63 else
      dcoef (blkL a) (blkL b) (i % 4 + 4) (i / 4 - 1)) else 0 := by
  have b0 (a : List R16) : S (blkL a) 0 64 = S4 (swL a) 0 := blkL_S a (t := 0) (by decide)
  have b1 (a : List R16) : S (blkL a) 64 64 = S4 (swL a) 1 := blkL_S a (t := 1) (by decide)
  have b2 (a : List R16) : S (blkL a) 128 64 = S4 (swL a) 2 := blkL_S a (t := 2) (by decide)
  have b3 (a : List R16) : S (blkL a) 192 64 = S4 (swL a) 3 := blkL_S a (t := 3) (by decide)
  have hp : S (swL a) 0 256 * S (swL b) 0 256 = expand R16 4 (cpoly (blkL a) (blkL b) 0) + X * expand R16 4 (cpoly (blkL a) (blkL b) 1) +
      X ^ 2 * expand R16 4 (cpoly (blkL a) (blkL b) 2) + X ^ 3 * expand R16 4 (cpoly (blkL a) (blkL b) 3) +
      X ^ 4 * expand R16 4 (cpoly (blkL a) (blkL b) 4) + X ^ 5 * expand R16 4 (cpoly (blkL a) (blkL b) 5) +
      X ^ 6 * expand R16 4 (cpoly (blkL a) (blkL b) 6) := by
    rw [S_eq_S4 (swL a), S_eq_S4 (swL b)]
    simp only [cpoly, b0, b1, b2, b3, map_add, map_mul]
    ring
  have hcs := coeff_strided (cpoly (blkL a) (blkL b) 0) (cpoly (blkL a) (blkL b) 1) (cpoly (blkL a) (blkL b) 2) (cpoly (blkL a) (blkL b) 3)
    (cpoly (blkL a) (blkL b) 4) (cpoly (blkL a) (blkL b) 5) (cpoly (blkL a) (blkL b) 6)
  dsimp only at hcs
  rw [← hp] at hcs
  generalize S (swL a) 0 256 * S (swL b) 0 256 = p at *
  have z (k j : Nat) (hj : 127 ≤ j) : (cpoly (blkL a) (blkL b) k).coeff j = 0 := Deg.cpoly _ _ k j hj
  have hK : i = 4 * (i / 4) + i % 4 := by omega
  have hj : i / 4 < 64 := by omega
  have ht : i % 4 < 4 := by omega
  generalize i / 4 = j at *
  generalize i % 4 = t at *
  subst hK
  unfold dcoef
  cases j with
  | zero =>
    obtain ⟨-, -, -, h3, h0, h1, h2⟩ := hcs 0
    obtain ⟨h4, h5, h6, -, -, -, -⟩ := hcs 63
    obtain ⟨-, -, -, h7, -, -, -⟩ := hcs 64
    simp only [Nat.mul_zero, Nat.zero_add, Nat.reduceAdd, Nat.reduceMul] at h0 h1 h2 h3 h4 h5 h6 h7
    interval_cases t <;> simp only [Nat.mul_zero, Nat.zero_add, Nat.reduceAdd, Nat.reduceLT, if_true, if_false, h0, h1, h2, h3, h4, h5, h6, h7]
    · rw [z 4 127 (by omega)]; ring
    · rw [z 5 127 (by omega)]; ring
    · rw [z 6 127 (by omega)]; ring
    · ring
  | succ j =>
    obtain ⟨h0, h1, h2, -, -, -, -⟩ := hcs j
    obtain ⟨h4, h5, h6, -, -, -, -⟩ := hcs (j + 64)
    obtain ⟨-, -, -, h3, -, -, -⟩ := hcs (j + 1)
    obtain ⟨-, -, -, h7, -, -, -⟩ := hcs (j + 1 + 64)
    rw [if_neg (Nat.succ_ne_zero j), Nat.add_sub_cancel]
    interval_cases t
    · rw [if_pos (by decide), Nat.add_zero, h0, show 4 * (j + 1) + 256 = 4 * (j + 64 + 1) by ring, h4,
        show j + 64 + 1 = j + 1 + 64 by ring]
      ring
    · rw [if_pos (by decide), h1, show 4 * (j + 1) + 1 + 256 = 4 * (j + 64 + 1) + 1 by ring, h5, show j + 64 + 1 = j + 1 + 64 by ring]
      ring
    · rw [if_pos (by decide), h2, show 4 * (j + 1) + 2 + 256 = 4 * (j + 64 + 1) + 2 by ring, h6, show j + 64 + 1 = j + 1 + 64 by ring]
      ring
    · rw [if_neg (by decide), h3, show 4 * (j + 1) + 3 + 256 = 4 * (j + 1 + 64) + 3 by ring, h7]
      ring

theorem tcForm_val (a b res : List R16) (ra : BitVec 32) (u : R16) (i : Nat) (hi : i < 256) :
    u16 (lval (valG (tcW a b res ra u)) (tcForm i)) = res.getD i 0 +
      ((S (swL a) 0 256 * S (swL b) 0 256).coeff i - (S (swL a) 0 256 * S (swL b) 0 256).coeff (i + 256)) + tcX a b ra u i := by
  have h1 : BitVec.ofNat 16 1 = (1 : R16) := rfl
  have h2 : BitVec.ofNat 16 65535 = (-1 : R16) := by decide
  have hp (k j : Nat) (hk : k < 7) (hj : j < 64) (c : Nat) : u16 (lval (valG (tcW a b res ra u)) [(1024 + 128 * k + j, c)]) =
      BitVec.ofNat 16 c * dcoef (blkL a) (blkL b) k j := by
    rw [u16_single, u16_valG (by omega), tcW_p _ _ _ _ _ hk hj]
  rw [sw_prod a b i hi]
  unfold tcForm
  simp only [u16_lval_add]
  have e1 : u16 (lval (valG (tcW a b res ra u)) [(512 + i, 1)]) = res.getD i 0 := by
    rw [u16_single, u16_valG (by omega), tcW_r _ _ _ _ _ hi, h1, one_mul]
  have e3 : u16 (lval (valG (tcW a b res ra u)) (if i % 4 < 3 then
      (if i / 4 = 0 then [(1024 + 128 * (i % 4 + 4) + 63, 65535)] else [(1024 + 128 * (i % 4 + 4) + (i / 4 - 1), 1)]) else [])) =
      if i % 4 < 3 then (if i / 4 = 0 then -dcoef (blkL a) (blkL b) (i % 4 + 4) 63 else
        dcoef (blkL a) (blkL b) (i % 4 + 4) (i / 4 - 1)) else 0 := by
    split
    · split
      · rw [hp _ _ (by omega) (by omega), h2, neg_one_mul]
      · rw [hp _ _ (by omega) (by omega), h1, one_mul]
    · exact u16_zero
  have e4 : u16 (lval (valG (tcW a b res ra u)) (if i = 0 then [(2000, 1)] else if i = 1 then [(2001, 1)] else if i = 2 then [(1024, 1)] else
      if i % 4 = 3 ∧ i ≠ 3 then [(2003, 1)] else [])) = tcX a b ra u i := by
    unfold tcX
    split
    · rw [u16_single, u16_valG (by omega), h1, one_mul, tcW, if_neg (by omega), if_neg (by omega), if_neg (by omega), if_neg (by omega), if_pos rfl]
    · split
      · rw [u16_single, u16_valG (by omega), h1, one_mul, tcW, if_neg (by omega), if_neg (by omega), if_neg (by omega), if_neg (by omega),
          if_neg (by omega), if_pos rfl]
      · split
        · have := hp 0 0 (by decide) (by decide) 1
          rw [h1, one_mul] at this
          exact this
        · split
          · rw [u16_single, u16_valG (by omega), h1, one_mul, tcW, if_neg (by omega), if_neg (by omega), if_neg (by omega), if_neg (by omega),
              if_neg (by omega), if_neg (by omega)]
          · exact u16_zero
  rw [e1, hp _ _ (by omega) (by omega), h1, one_mul, e3, e4]
  ring

theorem chkTc_ok {v : Nat → Int} {i : Nat} {h : BitVec 16} {k : LH} (hc : chkTc i k = true) (hk : LRH v h k) :
    (h.toNat : Int) ≡ lval v (tcForm i) [ZMOD 8192] := by
  cases k <;> simp only [chkTc, Bool.and_eq_true, Bool.false_eq_true] at hc
  rename_i k l
  obtain ⟨h1, h2⟩ := hc
  have h1 : 13 ≤ k := Nat.le_of_ble_eq_true h1
  have h2 := LF.eq_eq h2
  have h3 : (h.toNat : Int) ≡ lval v l [ZMOD 2 ^ 13] := hk.2.of_dvd (pow_dvd_pow _ h1)
  have h4 := (lval_add (v := v) (l.scale 8) []).symm
  rw [h2, lval_nil, Int.add_zero] at h4
  have h5 := ((lval_scale (v := v) 8 l).symm.trans h4).trans (lval_scale 8 (tcForm i))
  refine (show (h.toNat : Int) ≡ lval v l [ZMOD 8192] from h3).trans ?_
  have h5 : ((8 : Nat) : Int) * lval v l % 65536 = ((8 : Nat) : Int) * lval v (tcForm i) % 65536 := h5
  show _ % _ = _ % _
  push_cast at h5
  omega

theorem chkA_ok {v : Nat → Int} {i : Nat} {h : BitVec 16} {k : LH} (hc : chkA i k = true) (hk : LRH v h k) :
    (h.toNat : Int) ≡ v (tcIx i) [ZMOD 65536] := by
  cases k <;> simp only [chkA, Bool.and_eq_true, Bool.false_eq_true] at hc
  rename_i k l
  obtain ⟨h1, h2⟩ := hc
  have h1 : k = 16 := Nat.beq_eq.mp h1
  subst h1
  have := hk.2
  rw [LF.eq_eq h2, lval_cons, lval_nil, Int.add_zero] at this
  simpa using this

/-! ### The run -/

/-- The number of calls. -/
def ncalls : List Stmt → Nat
  | [] => 0
  | .call _ :: l => ncalls l + 1
  | _ :: l => ncalls l

theorem run_append {D : Dom} (f : Nat → State D → Option (State D)) (p q : List Stmt) (n : Nat) (s : State D) :
    run f n (p ++ q) s = match run f n p s with | some s => run f (n + ncalls p) q s | none => none := by
  induction p generalizing n s with
  | nil => rfl
  | cons c p ih =>
    cases c with
    | ins l =>
      simp only [List.cons_append, run, ncalls]
      cases steps l s with
      | none => rfl
      | some s => exact ih n s
    | loop l =>
      simp only [List.cons_append, run, ncalls]
      cases doNe l 256 s with
      | none => rfl
      | some s => exact ih n s
    | call k =>
      simp only [List.cons_append, run, ncalls]
      cases callFn (f k) n s with
      | none => rfl
      | some s =>
        rw [show n + (ncalls p + 1) = n + 1 + ncalls p by omega]
        exact ih (n + 1) s

theorem tc_split : toom_cook_4way_striding_asm = tcPre ++ .call 1 :: tcPost := rfl

/-- The functions that are called. -/
def tcCalls (ra : BitVec 32) : Nat → State conc → Option (State conc)
  | 0 => karaF conc
  | 1 => karaRA conc ra
  | _ => fun _ => none

theorem run_call {D : Dom} (f : Nat → State D → Option (State D)) (n k : Nat) (t : List Stmt) (s : State D) :
    run f n (.call k :: t) s = match callFn (f k) n s with | some s => run f (n + 1) t s | none => none := by
  rw [run]
  cases callFn (f k) n s <;> rfl

theorem tcF_split {ra : BitVec 32} {s p q : State conc} (h1 : run (tcCalls ra) 0 tcPre s = some p)
    (h2 : callFn (karaRA conc ra) 6 p = some q) : tcF conc ra s = run (tcCalls ra) 7 tcPost q := by
  have e : tcF conc ra = run (tcCalls ra) 0 toom_cook_4way_striding_asm := by
    unfold tcF
    congr 1
  rw [e, tc_split, run_append, h1, show 0 + ncalls tcPre = 6 by rfl]
  show run _ 6 _ p = _
  rw [run_call, show tcCalls ra 1 = karaRA conc ra from rfl, h2]

/-- The last call. -/
theorem lastCall_sim {a b : List R16} {v : Nat → Int} (hC : Carries v) (hv : ValOk a b v) {env : Nat → CVal} {known : ∀ k, env k ≠ .undef}
    {m0 : conc.M} (ra : BitVec 32) {s : State conc} {s' s1' : State ldom}
    (h : (lSim v hC).RS (Ctx.plain env known m0) s s') (e : callFn strdL1 6 s' = some s1') :
    ∃ s1 w, callFn (karaRA conc ra) 6 s = some s1 ∧ s1.ip = .w w ∧
      (v 2000 = (clo ra).toNat → v 2001 = (chi ra).toNat → v 2003 = (chi w).toNat → (lSim v hC).RS (Ctx.plain env known m0) s1 s1') := by
  unfold callFn at e
  cases hi : strdL1 (s'.set .lr (.a (.code 6))) with
  | none => simp [hi] at e
  | some s2' =>
  rw [hi] at e
  simp only at e
  have hs1 : s1' = s2' := by
    split at e
    · split at e
      · exact (Option.some.inj e).symm
      · cases e
    · cases e
  obtain ⟨s1, w, t, n, h1, h2, h3, h4, h5, h6, h7, h8, h9⟩ := strdL_sim hC hv
    (h.set .lr (v := .a (.code 6)) (v' := .a (.code 6)) rfl) (f := fun t _ =>
      (.w (.hh (LF.force (formOf 128 1024 (evP t)) fun l => .lin 16 l) (.lin 16 [(2003, 1)])), .w (.hh (.lin 16 [(2000, 1)]) (.lin 16 [(2001, 1)])))) hi
  have hpc : s1.pc = .a (.code 6) := by
    split at e
    · rename_i n' hq
      split at e
      · rename_i hn
        subst hn
        have := h7 .pc (by decide) (by decide)
        rw [show s2'.get .pc = _ from hq] at this
        exact this
      · cases e
    · cases e
  refine ⟨s1.set .lr (.w ra), w, ?_, h2, fun v0 v1 v3 => ?_⟩
  · unfold callFn karaRA
    rw [h1]
    simp only [h4]
    have : (s1.set .lr (.w ra)).pc = .a (.code 6) := hpc
    rw [this]
    simp
  · subst hs1
    have one {n : Nat} {x : BitVec 16} (hn : v n = x.toNat) : LRH v x (.lin 16 [(n, 1)]) := by
      refine ⟨le_refl _, ModEq.of_eq ?_⟩
      rw [lval_cons, lval_nil, hn]
      simp
    refine ⟨fun r => ?_, h8, h9⟩
    by_cases c1 : r = .ip
    · subst c1
      show Sim.RV _ _ s1.ip s1'.ip
      rw [h5, h2]
      refine ⟨w, rfl, ?_, one v3⟩
      rw [LF.force_eq]
      exact ⟨le_refl _, h3⟩
    · by_cases c2 : r = .lr
      · subst c2
        show Sim.RV _ _ (.w ra) s1'.lr
        rw [h6]
        exact ⟨ra, rfl, one v0, one v1⟩
      · have := h7 r c1 c2
        have e : (s1.set .lr (.w ra)).get r = s1.get r := by cases r <;> first | rfl | exact absurd rfl c2
        rw [e]
        exact this

theorem tcW_ra (a b res : List R16) (ra : BitVec 32) (u : R16) : valG (tcW a b res ra u) 2000 = (clo ra).toNat ∧
    valG (tcW a b res ra u) 2001 = (chi ra).toNat ∧ valG (tcW a b res ra u) 2003 = u.toNat := by
  refine ⟨?_, ?_, ?_⟩ <;> rw [valG_lt (by omega), tcW, if_neg (by omega), if_neg (by omega), if_neg (by omega), if_neg (by omega)]
  · rw [if_pos rfl]
  · rw [if_neg (by omega), if_pos rfl]
  · rw [if_neg (by omega), if_neg (by omega)]

/-- The constant coefficient of `A_0 B_0` modulo `Y^64 + 1`. -/
theorem dcoef_zero (a b : List R16) : dcoef (blkL a) (blkL b) 0 0 = u16 (negMul64 (fun j => vals a (4 * j)) (fun j => vals b (4 * j)) 0) := by
  have h := nega64 (blkL a) (blkL b) 0 (by decide)
  have hv (a : List R16) (i : Nat) (hi : i < 64) : vals (blkL a) i = vals a (4 * i) := by
    unfold vals
    rw [blkL, range_getD _ (by omega), Nat.mod_eq_of_lt hi, Nat.div_eq_of_lt hi]
    rfl
  have e : negMul64 (vals (blkL a)) (vals (blkL b)) 0 = negMul64 (fun j => vals a (4 * j)) (fun j => vals b (4 * j)) 0 := by
    unfold negMul64
    refine Finset.sum_congr rfl fun i hi => ?_
    have hi := Finset.mem_range.mp hi
    split
    · rw [hv a i hi, hv b _ (by omega)]
    · rw [hv a i hi, hv b _ (by omega)]
  rw [e] at h
  exact h

/-- What is added to coefficient `k` besides the product; `u` is what is left in a register. -/
def tcExtra (a b : List R16) (ra : BitVec 32) (u : R16) (k : Nat) : Int :=
  if k = 0 then ra.toNat % 65536 else if k = 1 then ra.toNat / 65536 else if k = 2 then negMul64 (fun j => vals a (4 * j)) (fun j => vals b (4 * j)) 0
  else if k % 4 = 3 ∧ k ≠ 3 then u.toNat else 0

theorem tcX_eq (a b : List R16) (ra : BitVec 32) (u : R16) (k : Nat) : tcX a b ra u k = u16 (tcExtra a b ra u k) := by
  unfold tcX tcExtra
  split
  · rw [← u16_toNat (clo ra), clo_toNat]
    push_cast
    rfl
  · split
    · rw [← u16_toNat (chi ra), chi_toNat]
      push_cast
      rfl
    · split
      · exact dcoef_zero a b
      · split
        · exact (u16_toNat u).symm
        · exact u16_zero.symm

set_option maxHeartbeats 1000000 in
/-- **What the function does.** -/
theorem tc_run (ra : BitVec 32) (g : Reg → CVal) (hg : ∀ r, g r ≠ .undef) (a b res : List (BitVec 16)) (stk : List (Cell (BitVec 16)))
    (ha : a.length = 256) (hb : b.length = 256) (hr : res.length = 256) (hs : stk.length = 886) :
    ∃ s b' res' stk' u, tcF conc ra (toomStart g a b res stk) = some s ∧ s.mem = [halves a, halves b', halves res', stk'] ∧
      b'.length = 256 ∧ res'.length = 256 ∧
      EqMod 8192 (toP res') (fun k => toP res k + negMul (toP (swL a)) (toP (swL b)) k + tcExtra a b ra u k) ∧
      s.pc = .a (.code 99) ∧ s.sp = .a (.ptr 3 1772) ∧
      s.r4 = g .r4 ∧ s.r5 = g .r5 ∧ s.r6 = g .r6 ∧ s.r7 = g .r7 ∧ s.r8 = g .r8 ∧ s.r9 = g .r9 ∧ s.sl = g .sl ∧ s.fp = g .fp := by
  have hc := tcCheck_ok
  unfold tcCheck at hc
  cases hk : tcL tcK with
  | none => simp [hk] at hc
  | some s' =>
  simp only [hk] at hc
  unfold tcL at hk
  split at hk
  case h_2 => cases hk
  rename_i p' hp'
  split at hk
  case h_2 => cases hk
  rename_i q' hq'
  let m0 : conc.M := (toomStart g a b res stk).mem
  have hkn (k : Nat) : regEnv3 g k ≠ .undef := by
    unfold regEnv3
    split
    · exact hg _
    · exact regEnv_known hg _
  let X := Ctx.plain (regEnv3 g) hkn m0
  let v (u : R16) := valG (tcW a b res ra u)
  let R (u : R16) : Sim ldom := lSim (v u) (valG_carries _)
  have h0 (u : R16) : (R u).RS X (toomStart g a b res stk) tcK := by
    have arr {c : List (BitVec 16)} {ob : Nat} {f : Nat → Nat} (h1 : (cmem m0)[ob]? = some (halves c)) (hn : c.length = 256)
        (hf : ∀ i, i < 256 → v u (f i) = (c.getD i 0).toNat) {i : Nat} (hi : i < 256) :
        X.dom ob i ∧ ∃ d, conc.rd X.m0 (X.ob ob) (X.off ob + i) = some d ∧ (R u).RC X d (.half (.lin 16 [(f i, 1)])) := by
      refine ⟨trivial, .half (c.getD i 0), ?_, _, rfl, le_refl _, ?_⟩
      · show conc.rd m0 ob (0 + i) = _
        rw [conc_rd h1, Nat.zero_add]
        exact getElem?_halves (by omega)
      · apply ModEq.of_eq
        rw [lval_cons, lval_nil, hf i hi]
        simp
    have va (i : Nat) (hi : i < 256) : v u (tcIx i) = (a.getD i 0).toNat := by
      obtain ⟨h1, h2⟩ := blkL_tcIx a hi
      show valG _ _ = _
      rw [valG_lt (by omega), tcW_a _ _ _ _ _ h1, h2]
    have vb (i : Nat) (hi : i < 256) : v u (256 + tcIx i) = (b.getD i 0).toNat := by
      obtain ⟨h1, h2⟩ := blkL_tcIx b hi
      show valG _ _ = _
      rw [valG_lt (by omega), tcW_b _ _ _ _ _ h1, h2]
    have vr (i : Nat) (hi : i < 256) : v u (512 + i) = (res.getD i 0).toNat := by
      show valG _ _ = _
      rw [valG_lt (by omega), tcW_r _ _ _ _ _ hi]
    have hm : (R u).RM X m0 tcK.mem := by
      refine ⟨rfl, fun ob i c' hcc => ?_, fun _ _ _ => rfl⟩
      obtain ⟨p, hp, hi, rfl⟩ := rd_kmemOf (H := LH) (l := tcObj) hcc
      match ob with
      | 0 => cases hp; exact arr (ob := 0) rfl ha va hi
      | 1 => cases hp; exact arr (f := fun i => 256 + tcIx i) (ob := 1) rfl hb vb hi
      | 2 => cases hp; exact arr (f := fun i => 512 + i) (ob := 2) rfl hr vr hi
      | 3 =>
        cases hp
        have hi : i < 886 := hi
        refine ⟨trivial, stk[i], ?_, ?_⟩
        · show conc.rd m0 3 (0 + i) = _
          rw [conc_rd (c := stk) rfl, Nat.zero_add]
          exact List.getElem?_eq_getElem (by omega)
        · cases stk[i] <;> trivial
      | n + 4 => simp [tcObj] at hp
    refine ⟨fun r => ?_, hm, FlR.refl _⟩
    cases r <;> try rfl
    show (Val.a _ : CVal) = _
    rw [hs]
    rfl
  have pre (u : R16) : ∃ p, run (tcCalls ra) 0 tcPre (toomStart g a b res stk) = some p ∧
      (R u).RS X p p' := by
    refine run_sim (fun k => ?_) 0 tcPre _ _ _ (h0 u) hp'
    match k with
    | 0 => exact strdL0_sim (valG_carries _) (tcW_ok a b res ra u)
    | n + 1 => exact fsim_none _
  obtain ⟨p, hp, hp0⟩ := pre 0
  obtain ⟨q, w, hq, hw, -⟩ := lastCall_sim (valG_carries _) (tcW_ok a b res ra 0) ra hp0 hq'
  obtain ⟨p2, hp2, hpu⟩ := pre (chi w)
  have : p2 = p := by rw [hp] at hp2; exact (Option.some.inj hp2).symm
  subst this
  obtain ⟨q2, w2, hq2, hw2, hqu⟩ := lastCall_sim (valG_carries _) (tcW_ok a b res ra (chi w)) ra hpu hq'
  have : q2 = q := by rw [hq] at hq2; exact (Option.some.inj hq2).symm
  subst this
  have : w2 = w := by rw [hw] at hw2; exact (Val.w.inj hw2).symm
  subst this
  have hqu := hqu (tcW_ra a b res ra _).1 (tcW_ra a b res ra _).2.1 (tcW_ra a b res ra _).2.2
  obtain ⟨s, e1, e2⟩ := run_sim (f := tcCalls ra) (f' := fun _ _ => none) (fun k => fsim_none _) 7 tcPost _ _ _ hqu hk
  have hrun : tcF conc ra (toomStart g a b res stk) = some s := by
    rw [tcF_split hp hq]
    exact e1
  generalize chi w2 = u at *
  unfold tcFinal at hc
  simp only [Bool.and_eq_true] at hc
  obtain ⟨c0, c1, c2, c3, c4, c5⟩ := hc
  have get {c : List (BitVec 16)} {ob : Nat} {f : Nat → LH → Bool} (h1 : (cmem m0)[ob]? = some (halves c)) (hn : c.length = 256)
      (hf : KM.allH s'.mem ob f 256 = true) := array_of e2.mem.len (ob := ob) (n := 256) h1 (by rw [length_halves, hn])
        (P := fun i x => ∃ k, f i k = true ∧ (R u).RH x k) fun i hi => by
          obtain ⟨k, h1, h2⟩ := KM.allH_rd hf hi
          obtain ⟨-, c, h3, x, rfl, h4⟩ := e2.mem.rd ob i _ h1
          rw [show X.off ob + i = i from Nat.zero_add i] at h3
          exact ⟨x, h3, k, h2, h4⟩
  obtain ⟨a', n0, l0, ha'⟩ := get rfl ha c0
  obtain ⟨b', n1, l1, hb'⟩ := get rfl hb c1
  obtain ⟨r', n2, l2, hr'⟩ := get rfl hr c2
  have hlen : (cmem s.mem).length = 4 := by
    have := congrArg List.length e2.mem.len
    exact (List.length_map (as := cmem s.mem) List.length).symm.trans this
  obtain ⟨x0, x1, x2, x3, hx⟩ := length4 hlen
  rw [hx] at n0 n1 n2
  simp only [List.getElem?_cons_zero, List.getElem?_cons_succ, Option.some.injEq] at n0 n1 n2
  subst n0 n1 n2
  have ea : a' = a := list_ext l0 ha fun i hi => by
    obtain ⟨k, f1, f2⟩ := ha' i hi
    have := chkA_ok f1 f2
    obtain ⟨h1, h2⟩ := blkL_tcIx a hi
    have va : v u (tcIx i) = (a.getD i 0).toNat := by
      show valG _ _ = _
      rw [valG_lt (by omega), tcW_a _ _ _ _ _ h1, h2]
    rw [va] at this
    exact toNat_inj this
  subst ea
  refine ⟨s, b', r', x3, u, hrun, hx, l1, l2, fun k => ?_, ?_, ?_, ?_⟩
  · obtain ⟨kk, f1, f2⟩ := hr' k.val k.isLt
    have f3 := chkTc_ok f1 f2
    have f4 := tcForm_val a' b res ra u k.val k.isLt
    rw [M0.negacyclic_coeff16, tcX_eq] at f4
    have hrd (x : R16) : red x = ((x.toNat : Int) : ZMod 8192) := by simp [red]
    have hru (x : Int) : red (u16 x) = (x : ZMod 8192) := by
      rw [hrd, ZMod.intCast_eq_intCast_iff']
      have := u16_spec x
      simp only [prom] at this
      omega
    refine (ZMod.intCast_eq_intCast_iff' _ _ 8192).1 ?_
    push_cast
    have f3 : (((r'.getD k.val 0).toNat : Int) : ZMod 8192) = ((lval (valG (tcW a' b res ra u)) (tcForm k.val) : Int) : ZMod 8192) :=
      (ZMod.intCast_eq_intCast_iff' _ _ 8192).2 f3
    have f6 : ((toP r' k : Int) : ZMod 8192) = _ := f3
    rw [f6, ← hru, f4, map_add, map_add, hru, hru, hrd]
    rfl
  · have := e2.reg .pc
    rw [show s'.get .pc = _ from isC_eq c4] at this
    exact this
  · have := e2.reg .sp
    rw [show s'.get .sp = _ from isP_eq c3] at this
    exact this
  · unfold saved at c5
    simp only [Bool.and_eq_true] at c5
    obtain ⟨⟨⟨⟨⟨⟨⟨h4, h5⟩, h6⟩, h7⟩, h8⟩, h9⟩, h10⟩, h11⟩ := c5
    have key (r : Reg) (n : Nat) (hr : isO (s'.get r) n = true) : s.get r = regEnv3 g n := by
      have := e2.reg r
      rw [isO_eq hr] at this
      exact this
    exact ⟨key .r4 4 h4, key .r5 5 h5, key .r6 6 h6, key .r7 7 h7, key .r8 8 h8, key .r9 9 h9, key .sl 10 h10, key .fp 11 h11⟩

end Saber.Arm

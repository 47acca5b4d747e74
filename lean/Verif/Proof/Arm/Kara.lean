import Verif.Proof.Arm.Mem
import Verif.Proof.M4.Contract
/-!
# The assembly of `kara.s` multiplies modulo `Y^64+1`
-/
namespace Saber.Arm

/-! ### The symbolic run -/

def kx (i : Nat) : KH := .x (KB ^ i) 0 1
def ky (i : Nat) : KH := .y (KB ^ (64 * i)) 0 1
def kP (o : Nat) (off : Int) : Val KW := .a (.ptr o off)
def kO (o : Nat) : Val KW := .a (.opq o)

/-- Objects: the variables `x_i`, the variables `y_j`, and unknown numbers. -/
def karaObj : List (Nat × (Nat → Cell KH)) :=
  [(64, fun i => .half (kx i)), (64, fun i => .half (ky i)), (64, fun i => .half (.opq (1000 + i))), (64, fun i => .half (.opq (2000 + i))),
    (30, fun _ => .undef)]

def karaK : State kdom :=
  ⟨kP 0 0, kP 1 0, kP 2 0, kP 3 0, kO 4, kO 5, kO 6, kO 7, kO 8, kO 9, kO 10, kO 11, .undef, kP 4 60, kO 14, .undef, kmemOf karaObj, ⟨none, none⟩⟩

/-- The terms `x_i y_{k-i}` and `x_i y_{64+k-i}` of coefficient `k`. -/
def negP (k : Nat) : List Nat := (List.range (k + 1)).map fun i => i + 64 * (k - i)
@[inherit_doc negP] def negN (k : Nat) : List Nat := (List.range (63 - k)).map fun j => k + 1 + j + 64 * (63 - j)

def chkXY (p n : Nat) : KH → Bool
  | .xy p' n' m => Nat.beq (p'.add n) (n'.add p) && Nat.blt (m.add 64) KB
  | _ => false

/-- The lower half of `ip` is coefficient 0 of the product. -/
def chkIp : Val KW → Bool
  | .w w => chkXY (enc KB (negP 0)) (enc KB (negN 0)) (kdom.lo w)
  | _ => false

def karaFinal (s : State kdom) : Bool :=
  KM.allH s.mem 0 (fun _ _ => true) 64 && (KM.allH s.mem 1 (fun _ _ => true) 64 && (KM.allH s.mem 2 (fun k => chkXY (enc KB (negP k)) (enc KB (negN k))) 64 &&
  (KM.allH s.mem 3 (fun _ _ => true) 64 && (isP s.sp 4 60 && (isO s.pc 14 && (saved s && (isP s.r0 0 0 && (isP s.r1 1 0 && (isP s.r3 3 0 &&
  (isO s.lr 14 && chkIp s.ip))))))))))

def karaCheck : Bool := match karaF kdom karaK with
  | none => false
  | some s => karaFinal s

theorem karaCheck_ok : karaCheck = true := by decide +kernel

/-! ### The machine -/

theorem chkXY_ok {SH : Nat} {x y o : Nat → BitVec 16} {lp ln : List Nat} (hp : lp.length ≤ 64) (hn : ln.length ≤ 64) {h : BitVec 16} {k : KH}
    (hc : chkXY (enc KB lp) (enc KB ln) k = true) (hk : KRH SH x y o h k) :
    h = lsum (fun t => x (t % SH) * y (t / SH)) lp - lsum (fun t => x (t % SH) * y (t / SH)) ln := by
  cases k <;> simp only [chkXY, Bool.and_eq_true, Bool.false_eq_true] at hc
  rename_i p n m
  obtain ⟨h1, h2⟩ := hc
  have h1 : p + enc KB ln = n + enc KB lp := Nat.beq_eq.mp h1
  have h2 : m + 64 < KB := of_decide_eq_true ((Nat.blt_eq).mp h2 |> decide_eq_true)
  exact Form.unique hk ⟨lp, ln, fun _ _ => trivial, fun _ _ => trivial, rfl, rfl, hp, hn, rfl⟩ h1 h2

open M4 in
theorem neg_sum (a b : List (BitVec 16)) (k : Nat) (hk : k < 64) :
    lsum (fun t => a.getD (t % 64) 0 * b.getD (t / 64) 0) (negP k) - lsum (fun t => a.getD (t % 64) 0 * b.getD (t / 64) 0) (negN k) =
      u16 (negMul64 (vals a) (vals b) k) := by
  have u (x : Int) : u16 x = ((x : Int) : R16) := rfl
  have hr (x : R16) : ((x.toNat : Int) : R16) = x := by rw [← u]; exact u16_prom x
  have e1 : lsum (fun t => a.getD (t % 64) 0 * b.getD (t / 64) 0) (negP k) = ∑ i ∈ Finset.range (k + 1), a.getD i 0 * b.getD (k - i) 0 := by
    rw [lsum, negP, List.map_map, sum_range_list]
    refine Finset.sum_congr rfl fun i hi => ?_
    have := Finset.mem_range.mp hi
    simp only [Function.comp]
    rw [show (i + 64 * (k - i)) % 64 = i by omega, show (i + 64 * (k - i)) / 64 = k - i by omega]
  have e2 : lsum (fun t => a.getD (t % 64) 0 * b.getD (t / 64) 0) (negN k) =
      ∑ j ∈ Finset.range (63 - k), a.getD (k + 1 + j) 0 * b.getD (64 + k - (k + 1 + j)) 0 := by
    rw [lsum, negN, List.map_map, sum_range_list]
    refine Finset.sum_congr rfl fun i hi => ?_
    have := Finset.mem_range.mp hi
    simp only [Function.comp]
    rw [show (k + 1 + i + 64 * (63 - i)) % 64 = k + 1 + i by omega, show (k + 1 + i + 64 * (63 - i)) / 64 = 64 + k - (k + 1 + i) by omega]
  have e3 (f : Nat → Int) : ∑ i ∈ Finset.range 64, f i = ∑ i ∈ Finset.range (k + 1), f i + ∑ j ∈ Finset.range (63 - k), f (k + 1 + j) := by
    rw [← Finset.sum_range_add, show k + 1 + (63 - k) = 64 by omega]
  rw [e1, e2, negMul64, u, e3, Int.cast_add, Int.cast_sum, Int.cast_sum,
    sub_eq_add_neg, ← Finset.sum_neg_distrib]
  congr 1
  · refine Finset.sum_congr rfl fun i hi => ?_
    have := Finset.mem_range.mp hi
    rw [if_pos (by omega), Int.cast_mul]
    simp only [vals]
    rw [hr, hr]
  · refine Finset.sum_congr rfl fun i hi => ?_
    have := Finset.mem_range.mp hi
    rw [if_neg (by omega), Int.cast_neg, Int.cast_mul]
    simp only [vals]
    rw [hr, hr]

theorem length5 {α : Type} {l : List α} (h : l.length = 5) : ∃ a b c d e, l = [a, b, c, d, e] := by
  match l, h with
  | [a, b, c, d, e], _ => exact ⟨a, b, c, d, e, rfl⟩

open M4 in
/-- The complete behaviour of `kara_strd_mem_asm`. -/
theorem kara_run (g : Reg → CVal) (hg : ∀ r, g r ≠ .undef) (k : K4) (stk : List (Cell (BitVec 16))) (ha : k.a.length = 64)
    (hb : k.b.length = 64) (hr : k.res.length = 64) (ht : k.tmp.length = 64) (hs : stk.length = 30) :
    ∃ s a' b' r' t' c', karaF conc (karaStart g k stk) = some s ∧ s.mem = [halves a', halves b', halves r', halves t', c'] ∧
      a'.length = 64 ∧ b'.length = 64 ∧ r'.length = 64 ∧ t'.length = 64 ∧
      (∀ i, i < 64 → vals r' i = negMul64 (vals k.a) (vals k.b) i % 65536) ∧
      s.pc = .a (.code 99) ∧ s.sp = .a (.ptr 4 60) ∧
      s.r4 = g .r4 ∧ s.r5 = g .r5 ∧ s.r6 = g .r6 ∧ s.r7 = g .r7 ∧ s.r8 = g .r8 ∧ s.r9 = g .r9 ∧ s.sl = g .sl ∧ s.fp = g .fp := by
  let o : Nat → BitVec 16 := fun n => if n < 2000 then k.res.getD (n - 1000) 0 else k.tmp.getD (n - 2000) 0
  have hc := karaCheck_ok
  unfold karaCheck at hc
  cases hk : karaF kdom karaK with
  | none => simp [hk] at hc
  | some s' =>
  simp only [hk] at hc
  let R : Sim kdom := kSim 64 (by decide) (fun i => k.a.getD i 0) (fun i => k.b.getD i 0) o
  let m0 : conc.M := (karaStart g k stk).mem
  let X := Ctx.plain (fun k => if k = 14 then .a (.code 99) else regEnv g k) (fun k => by
    split
    · simp
    · exact regEnv_known hg k) m0
  have arr {a : List (BitVec 16)} {ob n : Nat} {f : Nat → KH} (h1 : (cmem m0)[ob]? = some (halves a)) (hn : a.length = n)
      (hf : ∀ i, i < n → KRH 64 (fun i => k.a.getD i 0) (fun i => k.b.getD i 0) o (a.getD i 0) (f i)) {i : Nat} (hi : i < n) :
      X.dom ob i ∧ ∃ c, conc.rd X.m0 (X.ob ob) (X.off ob + i) = some c ∧ R.RC X c (.half (f i)) := by
    refine ⟨trivial, .half (a.getD i 0), ?_, _, rfl, hf i hi⟩
    show conc.rd m0 ob (0 + i) = _
    rw [conc_rd h1, Nat.zero_add]
    exact getElem?_halves (by omega)
  have hm : R.RM X m0 karaK.mem := by
    refine RM_of (l := karaObj) fun ob p hp => ?_
    match ob with
    | 0 =>
      cases hp
      refine fun i hi => arr (n := 64) (f := kx) rfl ha (fun i hi => ?_) hi
      exact ⟨[i], [], by simpa using hi, by simp, by simp [enc], rfl, le_refl _, by simp, by simp [lsum]⟩
    | 1 =>
      cases hp
      refine fun i hi => arr (n := 64) (f := ky) rfl hb (fun i hi => ?_) hi
      exact ⟨[64 * i], [], by simp, by simp, by simp [enc], rfl, le_refl _, by simp, by simp [lsum]⟩
    | 2 =>
      cases hp
      refine fun i hi => arr (n := 64) (f := fun i => .opq (1000 + i)) rfl hr (fun i hi => ?_) hi
      show _ = o _
      simp only [o]
      rw [if_pos (by omega), Nat.add_sub_cancel_left]
    | 3 =>
      cases hp
      refine fun i hi => arr (n := 64) (f := fun i => .opq (2000 + i)) rfl ht (fun i hi => ?_) hi
      show _ = o _
      simp only [o]
      rw [if_neg (by omega), Nat.add_sub_cancel_left]
    | 4 =>
      cases hp
      intro i hi
      have hi : i < 30 := hi
      refine ⟨trivial, stk[i], ?_, ?_⟩
      · show conc.rd m0 4 (0 + i) = _
        rw [conc_rd (c := stk) rfl, Nat.zero_add]
        exact List.getElem?_eq_getElem (by omega)
      · cases stk[i] <;> trivial
    | n + 5 => simp [karaObj] at hp
  have h0 : R.RS X (karaStart g k stk) karaK := by
    refine ⟨fun r => ?_, hm, FlR.refl _⟩
    cases r <;> first | rfl | trivial | skip
    show (Val.a _ : CVal) = _
    rw [hs]
    rfl
  obtain ⟨s, e1, e2⟩ := run_sim (fun _ => run_sim (fun _ => fsim_none _) 100 schoolbook_gen) 0 kara_strd_mem_asm _ _ _ h0 hk
  unfold karaFinal at hc
  simp only [Bool.and_eq_true] at hc
  obtain ⟨c0, c1, c2, c3, c4, c5, c6, -⟩ := hc
  have get {a : List (BitVec 16)} {ob : Nat} {f : Nat → KH → Bool} (h1 : (cmem m0)[ob]? = some (halves a)) (hn : a.length = 64)
      (hf : KM.allH s'.mem ob f 64 = true) := array_of e2.mem.len (ob := ob) (n := 64) h1 (by rw [length_halves, hn])
        (P := fun i x => ∃ k, f i k = true ∧ R.RH x k) fun i hi => by
          have := RM_allH e2.mem hf hi
          rwa [show X.off ob + i = i from Nat.zero_add i] at this
  obtain ⟨a', m0, l0, -⟩ := get rfl ha c0
  obtain ⟨b', m1, l1, -⟩ := get rfl hb c1
  obtain ⟨r', m2, l2, hr'⟩ := get rfl hr c2
  obtain ⟨t', m3, l3, -⟩ := get rfl ht c3
  have hlen : (cmem s.mem).length = 5 := by
    have := congrArg List.length e2.mem.len
    exact (List.length_map (as := cmem s.mem) List.length).symm.trans this
  obtain ⟨x0, x1, x2, x3, x4, hx⟩ := length5 hlen
  rw [hx] at m0 m1 m2 m3
  simp only [List.getElem?_cons_zero, List.getElem?_cons_succ, Option.some.injEq] at m0 m1 m2 m3
  subst m0 m1 m2 m3
  refine ⟨s, a', b', r', t', x4, e1, hx, l0, l1, l2, l3, fun i hi => ?_, ?_, ?_, saved_ok e2 (fun k _ hk => if_neg (by omega)) c6⟩
  · obtain ⟨kk, f1, f2⟩ := hr' i hi
    have f3 := chkXY_ok (SH := 64) (x := fun i => k.a.getD i 0) (y := fun i => k.b.getD i 0) (o := o) (by rw [negP, List.length_map, List.length_range]; omega) (by rw [negN, List.length_map, List.length_range]; omega) f1 f2
    rw [neg_sum _ _ _ hi] at f3
    rw [vals, f3]
    exact u16_mod _
  · have := e2.reg .pc
    rw [show s'.get .pc = _ from isO_eq c5] at this
    exact this
  · have := e2.reg .sp
    rw [show s'.get .sp = _ from isP_eq c4] at this
    exact this

open M4 in
/-- The assembly meets the contract of the C code. -/
theorem kara_asm_correct (g : Reg → CVal) (hg : ∀ r, g r ≠ .undef) (stk : List (Cell (BitVec 16))) (hs : stk.length = 30) :
    (kara_asm g stk).Correct := by
  intro k ha hb hr ht
  obtain ⟨s, a', b', r', t', c', h1, h2, l0, l1, l2, l3, h3, -⟩ := kara_run g hg k stk ha hb hr ht hs
  refine ⟨⟨a', b', r', t'⟩, ?_, l0, l1, l2, l3, h3⟩
  unfold kara_asm
  rw [h1]
  simp only [h2, unhalves_halves]

end Saber.Arm

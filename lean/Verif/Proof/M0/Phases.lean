import Verif.Proof.M0.Steps
/-!
# The phases of `unrolled_kara_mem_top/bottom` between the nine products
-/
namespace Saber.M0
open Saber

/-- `d[o + off + i] = F i` for `i < n`. -/
def V (d : List R16) (o off n : Nat) (F : Nat → R16) : Prop := ∀ i, i < n → d.getD (o + (off + i)) 0 = F i

theorem V.mono {d : List R16} {o off n m : Nat} {F : Nat → R16} (h : V d o off n F) (hm : m ≤ n) : V d o off m F :=
  fun i hi => h i (by omega)

theorem V.snoc {d : List R16} {o off n m : Nat} {F : Nat → R16} (h : V d o off n F) (hm : m = n + 1)
    (e : d.getD (o + (off + n)) 0 = F n) : V d o off m F := by
  subst hm
  intro i hi
  by_cases hi' : i = n
  · subst hi'; exact e
  · exact h i (by omega)

theorem V.sub {d : List R16} {o off n : Nat} {F : Nat → R16} (h : V d o off n F) {off' n' : Nat} {F' : Nat → R16} (j : Nat)
    (e : off' = off + j) (hn : n' + j ≤ n) (hF : ∀ i, i < n' → F (j + i) = F' i) : V d o off' n' F' := by
  intro i hi
  rw [← hF i hi, ← h (j + i) (by omega)]
  congr 1; omega

theorem V.at {d : List R16} {o off n : Nat} {F : Nat → R16} (h : V d o off n F) {p : Nat} (j : Nat) (hj : j < n)
    (e : p = o + (off + j)) : d.getD p 0 = F j := by rw [e]; exact h j hj

/-- Nothing changes outside of `d[o..o+m)`. -/
def Fr (o m : Nat) (d d' : List R16) : Prop := d'.length = d.length ∧ ∀ j, j < o ∨ o + m ≤ j → d'.getD j 0 = d.getD j 0

theorem Fr.refl (o m : Nat) (d : List R16) : Fr o m d d := ⟨rfl, fun _ _ => rfl⟩

theorem Fr.trans {o m : Nat} {d d' d'' : List R16} (h : Fr o m d d') (h' : Fr o m d' d'') : Fr o m d d'' :=
  ⟨h'.1.trans h.1, fun j hj => (h'.2 j hj).trans (h.2 j hj)⟩

section
variable {o : Nat} {bs : List Nat} {n : Nat} {f : Nat → Nat → (Nat → R16) → R16} {g : Nat → (Nat → R16) → R16} {tw : Bool} {s s' : KM}

theorem Lanes.get (L : Lanes o bs n f g tw s s') {b : Nat} (hb : b ∈ bs) {F : Nat → R16}
    (hF : ∀ i, i < n → f i b (fun b' => s.d.getD (o + (b' + i)) 0) = F i) : V s'.d o b n F :=
  fun i hi => (L.val b hb i hi).trans (hF i hi)

theorem Lanes.keep (L : Lanes o bs n f g tw s s') {off m : Nat} {F : Nat → R16} (h : V s.d o off m F)
    (hd : ∀ b ∈ bs, off + m ≤ b ∨ b + n ≤ off) : V s'.d o off m F := by
  intro i hi
  rw [L.rest _ fun b hb i' hi' e => ?_, h i hi]
  have := hd b hb
  omega

theorem Lanes.fr (L : Lanes o bs n f g tw s s') {m : Nat} (hd : ∀ b ∈ bs, b + n ≤ m) : Fr o m s.d s'.d := by
  refine ⟨L.len, fun j hj => L.rest j fun b hb i hi e => ?_⟩
  have := hd b hb
  omega

variable {i : Nat} {f1 : Nat → (Nat → R16) → R16} {g1 : (Nat → R16) → R16}

theorem Step.get (L : Step o bs i f1 g1 tw s s') {b : Nat} (hb : b ∈ bs) {x : R16}
    (hF : f1 b (fun b' => s.d.getD (o + (b' + i)) 0) = x) : s'.d.getD (o + (b + i)) 0 = x := (L.val b hb).trans hF

theorem Step.keep (L : Step o bs i f1 g1 tw s s') {off m : Nat} {F : Nat → R16} (h : V s.d o off m F)
    (hd : ∀ b ∈ bs, off + m ≤ b + i ∨ b + i < off) : V s'.d o off m F := by
  intro i hi
  rw [L.rest _ fun b hb e => ?_, h i hi]
  have := hd b hb
  omega

theorem Step.fr (L : Step o bs i f1 g1 tw s s') {m : Nat} (hd : ∀ b ∈ bs, b + i < m) : Fr o m s.d s'.d := by
  refine ⟨L.len, fun j hj => L.rest j fun b hb e => ?_⟩
  have := hd b hb
  omega
end

/-- Membership in, and arithmetic over, an explicit list of lanes. -/
macro "mem" : tactic => `(tactic| simp only [List.mem_cons, true_or, or_true])
@[inherit_doc tacticMem]
macro "far" : tactic => `(tactic| (
  simp only [List.forall_mem_cons, List.not_mem_nil, false_imp_iff, implies_true, and_true]
  (repeat' apply And.intro) <;> omega))

/-- Selects the value written to a lane. -/
macro "sel" : tactic => `(tactic| (ifs; all_goals (try dsimp only)))

section
variable {k h : Nat} (hk : k = 2 * h) (hh : 2 ≤ h) {a c : List R16} {ao co o : Nat} {s : KM}
  (ha : ao + 4 * h ≤ a.length) (hc : co + 4 * h ≤ c.length) (hd : o + (8 * h - 1) ≤ s.d.length) (ht : s.t.length = h)
  {A0 A1 A2 A3 C0 C1 C2 C3 x0 x1 x2 x3 f0 f1 f2 f3 f4 f5 f6 f7 g : Nat → R16}
  (hA0 : ∀ i, i < h → a.getD (ao + i) 0 = A0 i) (hA1 : ∀ i, i < h → a.getD (ao + (k/2+i)) 0 = A1 i)
  (hA2 : ∀ i, i < h → a.getD (ao + (k+i)) 0 = A2 i) (hA3 : ∀ i, i < h → a.getD (ao + (k+k/2+i)) 0 = A3 i)
  (hC0 : ∀ i, i < h → c.getD (co + i) 0 = C0 i) (hC1 : ∀ i, i < h → c.getD (co + (k/2+i)) 0 = C1 i)
  (hC2 : ∀ i, i < h → c.getD (co + (k+i)) 0 = C2 i) (hC3 : ∀ i, i < h → c.getD (co + (k+k/2+i)) 0 = C3 i)
include hk hh hd ht

include ha hc hA0 hA1 hA2 hA3 hC0 hC1 hC2 hC3 in
theorem ph1 (h0 : V s.d o 0 h x0) (h1 : V s.d o (k/2) h x1) (h2 : V s.d o k h x2) (h3 : V s.d o (k+k/2) h x3) :
    Ok (loop (k/2) s (kara1 k a ao o) >>= fun s => loop (k/2) s (kara1_2 k c co o)) fun s' =>
      Fr o (8*h-1) s.d s'.d ∧ s'.t.length = h ∧
      V s'.d o 0 h x0 ∧ V s'.d o (k/2) h x1 ∧ V s'.d o k h (fun i => x0 i + x2 i) ∧
      V s'.d o (k+k/2) h (fun i => x1 i + x3 i + (x0 i + x2 i)) ∧ V s'.d o (2*k) (h-1) (fun _ => 0) ∧
      V s'.d o (2*k+k/2-1) h (fun i => C0 i + C1 i + C2 i + C3 i) ∧ V s'.d o (3*k-1) h (fun i => A0 i + A2 i) ∧
      V s'.d o (3*k+k/2-1) h (fun i => A1 i + A3 i) ∧ V s'.t 0 0 h (fun i => A0 i + A2 i + (A1 i + A3 i)) := by
  refine (kara1_lanes hk hh ha hd ht).bind fun s1 L1 => ?_
  refine (kara1_2_lanes hk hh hc (by rw [L1.len]; exact hd) (L1.tlen.trans ht)).mono fun s2 L2 => ?_
  refine ⟨(L1.fr (by far)).trans (L2.fr (by far)), L2.tlen.trans (L1.tlen.trans ht), L2.keep (L1.keep h0 (by far)) (by far),
    L2.keep (L1.keep h1 (by far)) (by far), L2.keep (L1.get (by mem) fun i hi => ?_) (by far),
    L2.keep (L1.get (by mem) fun i hi => ?_) (by far), L2.keep ((L1.get (by mem) fun i hi => ?_).mono (Nat.sub_le h 1)) (by far),
    L2.get (by mem) fun i hi => ?_, L2.keep (L1.get (by mem) fun i hi => ?_) (by far),
    L2.keep (L1.get (by mem) fun i hi => ?_) (by far), fun i hi => ?_⟩
  · sel; rw [h0 i hi, h2 i hi]
  · sel; rw [h0 i hi, h1 i hi, h2 i hi, h3 i hi]
  · ifs
  · rw [hC0 i hi, hC1 i hi, hC2 i hi, hC3 i hi]
  · sel; rw [hA0 i hi, hA2 i hi]
  · sel; rw [hA1 i hi, hA3 i hi]
  · rw [Nat.zero_add, Nat.zero_add, L2.tval i hi, cond_false, L1.tval i hi, cond_true, hA0 i hi, hA1 i hi, hA2 i hi, hA3 i hi]

include hc hC0 hC2 in
theorem ph2 (h0 : V s.d o 0 h f0) (h1 : V s.d o (k/2) h f1) (h2 : V s.d o k h f2) (h3 : V s.d o (k+k/2) h f3)
    (h4 : V s.d o (2*k) (h-1) f4) (h6 : V s.d o (3*k-1) h f6) (h7 : V s.d o (3*k+k/2-1) h f7) (z4 : f4 (h-1) = 0) :
    Ok (loop (k/2-1) s (kara2 k c co o) >>= fun s => kara2' k c co o (k/2-1) s) fun s' =>
      Fr o (8*h-1) s.d s'.d ∧ s'.t.length = h ∧
      V s'.d o 0 h f0 ∧ V s'.d o (k/2) h f1 ∧ V s'.d o k h f2 ∧ V s'.d o (k+k/2) h (fun _ => 0) ∧ V s'.d o (2*k) (h-1) f4 ∧
      V s'.d o (2*k+k/2-1) h (fun i => f3 i + f4 i) ∧ V s'.d o (3*k-1) h f6 ∧ V s'.d o (3*k+k/2-1) h f7 ∧
      V s'.t 0 0 h (fun i => C0 i + C2 i) := by
  refine (kara2_lanes hk hh hc hd ht).bind fun s1 L1 => ?_
  refine (kara2T_tail hk hh hc (by rw [L1.len]; exact hd) (L1.tlen.trans ht)).mono fun s2 L2 => ?_
  have e3 := (L1.keep (h3.sub (off' := k+k/2+(h-1)) (n' := 1) (F' := fun _ => f3 (h-1)) (h-1) rfl (by omega)
    (fun i hi => by rw [show h - 1 + i = h - 1 by omega])) (by far)).at (p := o + (k+k/2+(h-1))) 0 (by omega) rfl
  refine ⟨(L1.fr (by far)).trans (L2.fr (by far)), L2.tlen.trans (L1.tlen.trans ht), L2.keep (L1.keep h0 (by far)) (by far),
    L2.keep (L1.keep h1 (by far)) (by far), L2.keep (L1.keep h2 (by far)) (by far),
    (L2.keep (L1.get (by mem) fun i hi => ?_) (by far)).snoc (by omega) (L2.get (by mem) ?_),
    L2.keep (L1.keep h4 (by far)) (by far),
    (L2.keep (L1.get (by mem) fun i hi => ?_) (by far)).snoc (by omega) (L2.get (by mem) ?_),
    L2.keep (L1.keep h6 (by far)) (by far), L2.keep (L1.keep h7 (by far)) (by far), fun i hi => ?_⟩
  · sel
  · sel
  · sel; rw [h3 i (by omega), h4 i (by omega)]
  · sel; rw [e3, z4, add_zero]
  · rw [Nat.zero_add, Nat.zero_add]
    by_cases e : i = h - 1
    · rw [e, L2.tval, cond_true, hC0 _ (by omega), hC2 _ (by omega)]
    · rw [L2.trest i e, L1.tval i (by omega), cond_true, hC0 _ (by omega), hC2 _ (by omega)]

include hc hC1 hC3 in
theorem ph3 (h0 : V s.d o 0 h f0) (h1 : V s.d o (k/2) h f1) (h2 : V s.d o k h f2) (h3 : V s.d o (k+k/2) (h-1) f3)
    (h4 : V s.d o (2*k) (h-1) f4) (h5 : V s.d o (2*k+k/2-1) h f5) (h7 : V s.d o (3*k+k/2-1) h f7)
    (z4 : f4 (h-1) - f3 (h-1) = 0) :
    Ok (loop (k/2-1) s (kara3 k c co o) >>= fun s => kara3' k c co o (k/2-1) s) fun s' =>
      Fr o (8*h-1) s.d s'.d ∧ s'.t.length = h ∧
      V s'.d o 0 h f0 ∧ V s'.d o (k/2) h f1 ∧ V s'.d o k h f2 ∧ V s'.d o (k+k/2) h (fun i => f5 i - f2 i) ∧
      V s'.d o (2*k) h (fun i => f4 i - f3 i) ∧ V s'.d o (2*k+k/2) (h-1) (fun _ => 0) ∧
      V s'.d o (3*k+k/2-1) h f7 ∧ V s'.t 0 0 h (fun i => C1 i + C3 i) := by
  refine (kara3_lanes hk hh hc hd ht).bind fun s1 L1 => ?_
  refine (kara3T_tail hk hh hc (by rw [L1.len]; exact hd) (L1.tlen.trans ht)).mono fun s2 L2 => ?_
  have e5 := (L1.keep (h5.sub (off' := 2*k+k/2-1+(h-1)) (n' := 1) (F' := fun _ => f5 (h-1)) (h-1) rfl (by omega)
    (fun i hi => by rw [show h - 1 + i = h - 1 by omega])) (by far)).at (p := o + (2*k+k/2-1+(h-1))) 0 (by omega) rfl
  have e2 := (L1.keep h2 (by far)).at (p := o + (k+(h-1))) (h-1) (by omega) rfl
  have z : V s2.d o (2*k+k/2-1) h (fun _ => 0) := by
    refine (L2.keep (L1.get (by mem) fun i hi => ?_) (by far)).snoc (by omega) (L2.get (by mem) ?_)
    · sel
    · sel
  refine ⟨(L1.fr (by far)).trans (L2.fr (by far)), L2.tlen.trans (L1.tlen.trans ht), L2.keep (L1.keep h0 (by far)) (by far),
    L2.keep (L1.keep h1 (by far)) (by far), L2.keep (L1.keep h2 (by far)) (by far),
    (L2.keep (L1.get (by mem) fun i hi => ?_) (by far)).snoc (by omega) (L2.get (by mem) ?_),
    (L2.keep (L1.get (by mem) fun i hi => ?_) (by far)).snoc (by omega) ?_, z.sub 1 (by omega) (by omega) (fun _ _ => rfl),
    L2.keep (L1.keep h7 (by far)) (by far), fun i hi => ?_⟩
  · sel; rw [h5 i (by omega), h2 i (by omega)]
  · sel; rw [e5, e2]
  · sel; rw [h4 i (by omega), h3 i (by omega)]
  · rw [z4]; exact z.at 0 (by omega) (by omega)
  · rw [Nat.zero_add, Nat.zero_add]
    by_cases e : i = h - 1
    · rw [e, L2.tval, cond_true, hC1 _ (by omega), hC3 _ (by omega)]
    · rw [L2.trest i e, L1.tval i (by omega), cond_true, hC1 _ (by omega), hC3 _ (by omega)]

include ha hc hA0 hA1 hC0 hC1 in
theorem ph4 (h0 : V s.d o 0 h f0) (h1 : V s.d o (k/2) h f1) (h2 : V s.d o k h f2) (h3 : V s.d o (k+k/2) h f3)
    (h4 : V s.d o (2*k) h f4) (h5 : V s.d o (2*k+k/2) (h-1) f5) (z5 : f5 (h-1) = 0) :
    Ok (loop (k/2-1) s (kara4 k o) >>= fun s => kara4' k o (k/2-1) s >>= fun s => loop (k/2) s (kara4_2 k a ao c co o)) fun s' =>
      Fr o (8*h-1) s.d s'.d ∧ s'.t.length = h ∧
      V s'.d o 0 h f0 ∧ V s'.d o (k/2) h (fun i => f0 i + f1 i) ∧ V s'.d o k (h-1) (fun _ => 0) ∧
      V s'.d o (k+k/2-1) h (fun i => A0 i + A1 i) ∧ V s'.d o (2*k) h (fun i => f4 i - f5 i) ∧ V s'.d o (2*k+k/2) (h-1) f5 ∧
      V s'.d o (3*k-1) h (fun i => f4 i - f5 i + f2 i) ∧ V s'.d o (3*k+k/2-1) h (fun i => f3 i - (f4 i - f5 i)) ∧
      V s'.t 0 0 h (fun i => C0 i + C1 i) := by
  refine (kara4_lanes hk hh hd ht).bind fun s1 L1 => ?_
  refine (kara4T_tail hk hh (by rw [L1.len]; exact hd) (L1.tlen.trans ht)).bind fun s2 L2 => ?_
  refine (kara4_2_lanes hk hh ha hc (by rw [L2.len, L1.len]; exact hd) (L2.tlen.trans (L1.tlen.trans ht))).mono fun s3 L3 => ?_
  have last : ∀ {off : Nat} {F : Nat → R16}, V s.d o off h F → (∀ b ∈ [k/2, 2*k, 3*k-1, 3*k+k/2-1, k], off + (h-1) + 1 ≤ b ∨ b + (h-1) ≤ off + (h-1)) →
      s1.d.getD (o + (off + (h-1))) 0 = F (h-1) := by
    intro off F hv hb
    exact (L1.keep (hv.sub (off' := off+(h-1)) (n' := 1) (F' := fun _ => F (h-1)) (h-1) rfl (by omega)
      (fun i hi => by rw [show h - 1 + i = h - 1 by omega])) hb).at 0 (by omega) rfl
  have e0 := last h0 (by far)
  have e1 := last h1 (by far)
  have e2 := last h2 (by far)
  have e3 := last h3 (by far)
  have e4 := last h4 (by far)
  refine ⟨((L1.fr (by far)).trans (L2.fr (by far))).trans (L3.fr (by far)), L3.tlen.trans (L2.tlen.trans (L1.tlen.trans ht)),
    L3.keep (L2.keep (L1.keep h0 (by far)) (by far)) (by far),
    L3.keep ((L2.keep (L1.get (by mem) fun i hi => ?_) (by far)).snoc (by omega) (L2.get (by mem) ?_)) (by far),
    L3.keep (L2.keep (L1.get (by mem) fun i hi => ?_) (by far)) (by far),
    L3.get (by mem) fun i hi => ?_,
    L3.keep ((L2.keep (L1.get (by mem) fun i hi => ?_) (by far)).snoc (by omega) ?_) (by far),
    L3.keep (L2.keep (L1.keep h5 (by far)) (by far)) (by far),
    L3.keep ((L2.keep (L1.get (by mem) fun i hi => ?_) (by far)).snoc (by omega) (L2.get (by mem) ?_)) (by far),
    L3.keep ((L2.keep (L1.get (by mem) fun i hi => ?_) (by far)).snoc (by omega) (L2.get (by mem) ?_)) (by far), fun i hi => ?_⟩
  · sel; rw [h0 i (by omega), h1 i (by omega)]
  · sel; rw [e0, e1]
  · sel
  · rw [hA0 i hi, hA1 i hi]
  · sel; rw [h4 i (by omega), h5 i (by omega)]
  · rw [L2.rest _ (by far), e4, z5, sub_zero]
  · sel; rw [h4 i (by omega), h5 i (by omega), h2 i (by omega)]
  · sel; rw [e4, e2, z5, sub_zero]
  · sel; rw [h4 i (by omega), h5 i (by omega), h3 i (by omega)]
  · sel; rw [e4, e3, z5, sub_zero]
  · rw [Nat.zero_add, Nat.zero_add, L3.tval i hi, cond_true, hC0 i hi, hC1 i hi]

theorem ph5 (h0 : V s.d o 0 h f0) (h1 : V s.d o (k/2) h f1) (h2 : V s.d o k (h-1) f2)
    (h4 : V s.d o (2*k) h f4) (h5 : V s.d o (2*k+k/2) (h-1) f5) (h6 : V s.d o (3*k-1) h f6) (h7 : V s.d o (3*k+k/2-1) h f7)
    (z2 : f2 (h-1) = 0) :
    Ok (loop (k/2-1) s (kara5 k o) >>= fun s => kara5' k o (k/2-1) s) fun s' =>
      Fr o (8*h-1) s.d s'.d ∧ s'.t.length = h ∧
      V s'.d o 0 h f0 ∧ V s'.d o (k/2) h (fun _ => 0) ∧ V s'.d o k (h-1) f2 ∧ V s'.d o (k+k/2-1) h (fun i => f1 i + f2 i) ∧
      V s'.d o (2*k) h f4 ∧ V s'.d o (2*k+k/2) (h-1) f5 ∧ V s'.d o (3*k-1) h f6 ∧ V s'.d o (3*k+k/2-1) h f7 := by
  refine (kara5_lanes hk hh hd ht).bind fun s1 L1 => ?_
  refine (kara5T_tail hk hh (by rw [L1.len]; exact hd) (L1.tlen.trans ht)).mono fun s2 L2 => ?_
  have e1 := (L1.keep (h1.sub (off' := k/2+(h-1)) (n' := 1) (F' := fun _ => f1 (h-1)) (h-1) rfl (by omega)
    (fun i hi => by rw [show h - 1 + i = h - 1 by omega])) (by far)).at (p := o + (k/2+(h-1))) 0 (by omega) rfl
  refine ⟨(L1.fr (by far)).trans (L2.fr (by far)), L2.tlen.trans (L1.tlen.trans ht), L2.keep (L1.keep h0 (by far)) (by far),
    (L2.keep (L1.get (by mem) fun i hi => ?_) (by far)).snoc (by omega) (L2.get (by mem) ?_),
    L2.keep (L1.keep h2 (by far)) (by far),
    (L2.keep (L1.get (by mem) fun i hi => ?_) (by far)).snoc (by omega) (L2.get (by mem) ?_),
    L2.keep (L1.keep h4 (by far)) (by far), L2.keep (L1.keep h5 (by far)) (by far),
    L2.keep (L1.keep h6 (by far)) (by far), L2.keep (L1.keep h7 (by far)) (by far)⟩
  · sel
  · sel
  · sel; rw [h1 i (by omega), h2 i (by omega)]
  · sel; rw [e1, z2, add_zero]

theorem ph6 (h0 : V s.d o 0 h f0) (h1 : V s.d o (k/2) (h-1) f1) (h2 : V s.d o k (h-1) f2) (h3 : V s.d o (k+k/2-1) h f3)
    (h4 : V s.d o (2*k) h f4) (h5 : V s.d o (2*k+k/2) (h-1) f5) (h6 : V s.d o (3*k-1) h f6) (h7 : V s.d o (3*k+k/2-1) h f7)
    (z2 : f2 (h-1) - f1 (h-1) = 0) :
    Ok (loop (k/2-1) s (kara6 k o) >>= fun s => kara6' k o (k/2-1) s) fun s' =>
      Fr o (8*h-1) s.d s'.d ∧ s'.t.length = h ∧
      V s'.d o 0 h f0 ∧ V s'.d o (k/2) h (fun i => f3 i - f0 i) ∧ V s'.d o k h (fun i => f2 i - f1 i) ∧
      V s'.d o (k+k/2) (h-1) (fun _ => 0) ∧
      V s'.d o (2*k) h f4 ∧ V s'.d o (2*k+k/2) (h-1) f5 ∧ V s'.d o (3*k-1) h f6 ∧ V s'.d o (3*k+k/2-1) h f7 := by
  refine (kara6_lanes hk hh hd ht).bind fun s1 L1 => ?_
  refine (kara6T_tail hk hh (by rw [L1.len]; exact hd) (L1.tlen.trans ht)).mono fun s2 L2 => ?_
  have e3 := (L1.keep (h3.sub (off' := k+k/2-1+(h-1)) (n' := 1) (F' := fun _ => f3 (h-1)) (h-1) rfl (by omega)
    (fun i hi => by rw [show h - 1 + i = h - 1 by omega])) (by far)).at (p := o + (k+k/2-1+(h-1))) 0 (by omega) rfl
  have e0 := (L1.keep h0 (by far)).at (p := o + (0+(h-1))) (h-1) (by omega) rfl
  have z : V s2.d o (k+k/2-1) h (fun _ => 0) := by
    refine (L2.keep (L1.get (by mem) fun i hi => ?_) (by far)).snoc (by omega) (L2.get (by mem) ?_)
    · sel
    · sel
  refine ⟨(L1.fr (by far)).trans (L2.fr (by far)), L2.tlen.trans (L1.tlen.trans ht), L2.keep (L1.keep h0 (by far)) (by far),
    (L2.keep (L1.get (by mem) fun i hi => ?_) (by far)).snoc (by omega) (L2.get (by mem) ?_),
    (L2.keep (L1.get (by mem) fun i hi => ?_) (by far)).snoc (by omega) ?_, z.sub 1 (by omega) (by omega) (fun _ _ => rfl),
    L2.keep (L1.keep h4 (by far)) (by far), L2.keep (L1.keep h5 (by far)) (by far),
    L2.keep (L1.keep h6 (by far)) (by far), L2.keep (L1.keep h7 (by far)) (by far)⟩
  · sel; rw [h3 i (by omega), h0 i (by omega)]
  · sel; rw [e3, e0]
  · sel; rw [h2 i (by omega), h1 i (by omega)]
  · rw [z2]; exact z.at 0 (by omega) (by omega)

include ha hc hA2 hA3 hC2 hC3 in
theorem ph7 (h0 : V s.d o 0 h f0) (h1 : V s.d o (k/2) h f1) (h2 : V s.d o k h f2) (h3 : V s.d o (k+k/2) (h-1) f3)
    (h4 : V s.d o (2*k) h f4) (h5 : V s.d o (2*k+k/2) (h-1) f5) (h6 : V s.d o (3*k-1) h f6) (h7 : V s.d o (3*k+k/2-1) h f7)
    (z3 : f3 (h-1) = 0) (z5 : f5 (h-1) = 0) :
    Ok (loop (k/2-1) s (kara7 k a ao c co o) >>= fun s => kara7' k a ao c co o (k/2-1) s) fun s' =>
      Fr o (8*h-1) s.d s'.d ∧ s'.t.length = h ∧
      V s'.d o 0 h f0 ∧ V s'.d o (k/2) h (fun i => f1 i - f2 i) ∧ V s'.d o k h (fun i => f6 i - f0 i) ∧
      V s'.d o (k+k/2) h (fun i => f7 i - (f1 i - f2 i)) ∧ V s'.d o (2*k) h (fun i => f4 i - f2 i + f3 i) ∧
      V s'.d o (2*k+k/2) h (fun i => f4 i - f2 i + f3 i + f5 i - f3 i) ∧ V s'.d o (3*k) (h-1) (fun _ => 0) ∧
      V s'.d o (3*k+k/2-1) h (fun i => A2 i + A3 i) ∧ V s'.t 0 0 h (fun i => C2 i + C3 i) := by
  refine (kara7_lanes hk hh ha hc hd ht).bind fun s1 L1 => ?_
  refine (kara7T_tail hk hh ha hc (by rw [L1.len]; exact hd) (L1.tlen.trans ht)).mono fun s2 L2 => ?_
  have last : ∀ {off : Nat} {F : Nat → R16}, V s.d o off h F → (∀ b ∈ [k/2, 2*k, k, 3*k-1, 2*k+k/2, k+k/2, 3*k+k/2-1],
      off + (h-1) + 1 ≤ b ∨ b + (h-1) ≤ off + (h-1)) → s1.d.getD (o + (off + (h-1))) 0 = F (h-1) := by
    intro off F hv hb
    exact (L1.keep (hv.sub (off' := off+(h-1)) (n' := 1) (F' := fun _ => F (h-1)) (h-1) rfl (by omega)
      (fun i hi => by rw [show h - 1 + i = h - 1 by omega])) hb).at 0 (by omega) rfl
  have e0 := last h0 (by far)
  have e1 := last h1 (by far)
  have e2 := last h2 (by far)
  have e4 := last h4 (by far)
  have e6 := last h6 (by far)
  have e7 := last h7 (by far)
  have z1 : V s1.d o (3*k-1) (h-1) (fun _ => 0) := by
    refine L1.get (by mem) fun i hi => ?_
    sel
  have e5 := z1.at (p := o + (2*k+k/2+(h-1))) 0 (by omega) (by omega)
  have z : V s2.d o (3*k) (h-2) (fun _ => 0) := L2.keep (z1.sub 1 (by omega) (by omega) fun _ _ => rfl) (by far)
  have zl : s2.d.getD (o + (3*k-1+(h-1))) 0 = 0 := by
    refine L2.get (by mem) ?_
    sel
  refine ⟨(L1.fr (by far)).trans (L2.fr (by far)), L2.tlen.trans (L1.tlen.trans ht), L2.keep (L1.keep h0 (by far)) (by far),
    (L2.keep (L1.get (by mem) fun i hi => ?_) (by far)).snoc (by omega) (L2.get (by mem) ?_),
    (L2.keep (L1.get (by mem) fun i hi => ?_) (by far)).snoc (by omega) (L2.get (by mem) ?_),
    (L2.keep (L1.get (by mem) fun i hi => ?_) (by far)).snoc (by omega) (L2.get (by mem) ?_),
    (L2.keep (L1.get (by mem) fun i hi => ?_) (by far)).snoc (by omega) (L2.get (by mem) ?_),
    (L2.keep (L1.get (by mem) fun i hi => ?_) (by far)).snoc (by omega) (L2.get (by mem) ?_),
    z.snoc (by omega) ?_,
    (L2.keep (L1.get (by mem) fun i hi => ?_) (by far)).snoc (by omega) (L2.get (by mem) ?_), fun i hi => ?_⟩
  · sel; rw [h1 i (by omega), h2 i (by omega)]
  · sel; rw [e1, e2]
  · sel; rw [h6 i (by omega), h0 i (by omega)]
  · sel; rw [e6, e0]
  · sel; rw [h7 i (by omega), h1 i (by omega), h2 i (by omega)]
  · sel; rw [e7, e1, e2]
  · sel; rw [h4 i (by omega), h2 i (by omega), h3 i (by omega)]
  · sel; rw [e4, e2, z3, add_zero]
  · sel; rw [h4 i (by omega), h2 i (by omega), h3 i (by omega), h5 i (by omega)]
  · sel; rw [e4, e2, e5, z3, z5]; ring
  · rw [← zl]; congr 1; omega
  · sel; rw [hA2 i (by omega), hA3 i (by omega)]
  · sel; rw [hA2 _ (by omega), hA3 _ (by omega)]
  · rw [Nat.zero_add, Nat.zero_add]
    by_cases e : i = h - 1
    · rw [e, L2.tval, cond_true, hC2 _ (by omega), hC3 _ (by omega)]
    · rw [L2.trest i e, L1.tval i (by omega), cond_true, hC2 _ (by omega), hC3 _ (by omega)]

theorem ph8 (h0 : V s.d o 0 h f0) (h1 : V s.d o (k/2) h f1) (h2 : V s.d o k h f2) (h3 : V s.d o (k+k/2) h f3)
    (h4 : V s.d o (2*k) h f4) (h5 : V s.d o (2*k+k/2) h f5) (h6 : V s.d o (3*k) (h-1) f6) (z6 : f6 (h-1) = 0) :
    Ok (loop (k/2-1) s (kara8 k o) >>= fun s => kara8' k o (k/2-1) s) fun s' =>
      Fr o (8*h-1) s.d s'.d ∧ s'.t.length = h ∧
      V s'.d o 0 h f0 ∧ V s'.d o (k/2) h f1 ∧ V s'.d o k h f2 ∧ V s'.d o (k+k/2) h f3 ∧
      V s'.d o (2*k) h f4 ∧ V s'.d o (2*k+k/2) h (fun _ => 0) ∧ V s'.d o (3*k) (h-1) f6 ∧
      V s'.d o (3*k+k/2-1) h (fun i => f5 i + f6 i) := by
  refine (kara8_lanes hk hh hd ht).bind fun s1 L1 => ?_
  refine (kara8T_tail hk hh (by rw [L1.len]; exact hd) (L1.tlen.trans ht)).mono fun s2 L2 => ?_
  have e5 := (L1.keep (h5.sub (off' := 2*k+k/2+(h-1)) (n' := 1) (F' := fun _ => f5 (h-1)) (h-1) rfl (by omega)
    (fun i hi => by rw [show h - 1 + i = h - 1 by omega])) (by far)).at (p := o + (2*k+k/2+(h-1))) 0 (by omega) rfl
  refine ⟨(L1.fr (by far)).trans (L2.fr (by far)), L2.tlen.trans (L1.tlen.trans ht), L2.keep (L1.keep h0 (by far)) (by far),
    L2.keep (L1.keep h1 (by far)) (by far), L2.keep (L1.keep h2 (by far)) (by far), L2.keep (L1.keep h3 (by far)) (by far),
    L2.keep (L1.keep h4 (by far)) (by far),
    (L2.keep (L1.get (by mem) fun i hi => ?_) (by far)).snoc (by omega) (L2.get (by mem) ?_),
    L2.keep (L1.keep h6 (by far)) (by far),
    (L2.keep (L1.get (by mem) fun i hi => ?_) (by far)).snoc (by omega) (L2.get (by mem) ?_)⟩
  · sel
  · sel
  · sel; rw [h5 i (by omega), h6 i (by omega)]
  · sel; rw [e5, z6, add_zero]

theorem ph9 (h0 : V s.d o 0 h f0) (h1 : V s.d o (k/2) h f1) (h2 : V s.d o k h f2) (h3 : V s.d o (k+k/2) h f3)
    (h4 : V s.d o (2*k) h f4) (h5 : V s.d o (2*k+k/2) (h-1) f5) (h6 : V s.d o (3*k) (h-1) f6) (h7 : V s.d o (3*k+k/2-1) h f7)
    (z6 : f6 (h-1) - f5 (h-1) = 0) :
    Ok (loop (k/2-1) s (kara9 k o) >>= fun s => kara9' k o (k/2-1) s) fun s' =>
      Fr o (8*h-1) s.d s'.d ∧ s'.t.length = h ∧
      V s'.d o 0 h f0 ∧ V s'.d o (k/2) h f1 ∧ V s'.d o k h f2 ∧ V s'.d o (k+k/2) h f3 ∧
      V s'.d o (2*k) h f4 ∧ V s'.d o (2*k+k/2) h (fun i => f7 i - f4 i) ∧ V s'.d o (3*k) h (fun i => f6 i - f5 i) ∧
      V s'.d o (3*k+k/2) (h-1) (fun _ => 0) := by
  refine (kara9_lanes hk hh hd ht).bind fun s1 L1 => ?_
  refine (kara9T_tail hk hh (by rw [L1.len]; exact hd) (L1.tlen.trans ht)).mono fun s2 L2 => ?_
  have e7 := (L1.keep (h7.sub (off' := 3*k+k/2-1+(h-1)) (n' := 1) (F' := fun _ => f7 (h-1)) (h-1) rfl (by omega)
    (fun i hi => by rw [show h - 1 + i = h - 1 by omega])) (by far)).at (p := o + (3*k+k/2-1+(h-1))) 0 (by omega) rfl
  have e4 := (L1.keep h4 (by far)).at (p := o + (2*k+(h-1))) (h-1) (by omega) rfl
  have z : V s2.d o (3*k+k/2-1) h (fun _ => 0) := by
    refine (L2.keep (L1.get (by mem) fun i hi => ?_) (by far)).snoc (by omega) (L2.get (by mem) ?_)
    · sel
    · sel
  refine ⟨(L1.fr (by far)).trans (L2.fr (by far)), L2.tlen.trans (L1.tlen.trans ht), L2.keep (L1.keep h0 (by far)) (by far),
    L2.keep (L1.keep h1 (by far)) (by far), L2.keep (L1.keep h2 (by far)) (by far), L2.keep (L1.keep h3 (by far)) (by far),
    L2.keep (L1.keep h4 (by far)) (by far),
    (L2.keep (L1.get (by mem) fun i hi => ?_) (by far)).snoc (by omega) (L2.get (by mem) ?_),
    (L2.keep (L1.get (by mem) fun i hi => ?_) (by far)).snoc (by omega) ?_, z.sub 1 (by omega) (by omega) (fun _ _ => rfl)⟩
  · sel; rw [h7 i (by omega), h4 i (by omega)]
  · sel; rw [e7, e4]
  · sel; rw [h6 i (by omega), h5 i (by omega)]
  · rw [z6]; exact z.at 0 (by omega) (by omega)

theorem ph10 (h0 : V s.d o 0 h f0) (h1 : V s.d o (k/2) h f1) (h2 : V s.d o k h f2) (h3 : V s.d o (k+k/2) h f3)
    (h4 : V s.d o (2*k) h f4) (h5 : V s.d o (2*k+k/2) h f5) (h6 : V s.d o (3*k) h f6) (h7 : V s.d o (3*k+k/2) (h-1) f7)
    (z7 : f7 (h-1) = 0) :
    Ok (loop (k/2-1) s (kara10 k o) >>= fun s => kara10' k o (k/2-1) s) fun s' =>
      Fr o (8*h-1) s.d s'.d ∧
      V s'.d o 0 h f0 ∧ V s'.d o (k/2) h f1 ∧ V s'.d o k h (fun i => f2 i - f4 i) ∧
      V s'.d o (k+k/2) h (fun i => f3 i - (f5 i - f6 i)) ∧
      V s'.d o (2*k) h (fun i => f4 i - (f6 i - f7 i)) ∧ V s'.d o (2*k+k/2) h (fun i => f5 i - f6 i - f7 i) ∧
      V s'.d o (3*k) h (fun i => f6 i - f7 i) ∧ V s'.d o (3*k+k/2) (h-1) f7 := by
  refine (kara10_lanes hk hh hd ht).bind fun s1 L1 => ?_
  refine (kara10T_tail hk hh (by rw [L1.len]; exact hd) (L1.tlen.trans ht)).mono fun s2 L2 => ?_
  have last : ∀ {off : Nat} {F : Nat → R16}, V s.d o off h F → (∀ b ∈ [2*k+k/2, 3*k, k, 2*k, k+k/2],
      off + (h-1) + 1 ≤ b ∨ b + (h-1) ≤ off + (h-1)) → s1.d.getD (o + (off + (h-1))) 0 = F (h-1) := by
    intro off F hv hb
    exact (L1.keep (hv.sub (off' := off+(h-1)) (n' := 1) (F' := fun _ => F (h-1)) (h-1) rfl (by omega)
      (fun i hi => by rw [show h - 1 + i = h - 1 by omega])) hb).at 0 (by omega) rfl
  have e2 := last h2 (by far)
  have e3 := last h3 (by far)
  have e4 := last h4 (by far)
  have e5 := last h5 (by far)
  have e6 := last h6 (by far)
  refine ⟨(L1.fr (by far)).trans (L2.fr (by far)), L2.keep (L1.keep h0 (by far)) (by far),
    L2.keep (L1.keep h1 (by far)) (by far),
    (L2.keep (L1.get (by mem) fun i hi => ?_) (by far)).snoc (by omega) (L2.get (by mem) ?_),
    (L2.keep (L1.get (by mem) fun i hi => ?_) (by far)).snoc (by omega) (L2.get (by mem) ?_),
    (L2.keep (L1.get (by mem) fun i hi => ?_) (by far)).snoc (by omega) (L2.get (by mem) ?_),
    (L2.keep (L1.get (by mem) fun i hi => ?_) (by far)).snoc (by omega) (L2.get (by mem) ?_),
    (L2.keep (L1.get (by mem) fun i hi => ?_) (by far)).snoc (by omega) ?_,
    L2.keep (L1.keep h7 (by far)) (by far)⟩
  · sel; rw [h2 i (by omega), h4 i (by omega)]
  · sel; rw [e2, e4]
  · sel; rw [h3 i (by omega), h5 i (by omega), h6 i (by omega)]
  · sel; rw [e3, e5, e6]
  · sel; rw [h4 i (by omega), h6 i (by omega), h7 i (by omega)]
  · sel; rw [e4, e6, z7, sub_zero]
  · sel; rw [h5 i (by omega), h6 i (by omega), h7 i (by omega)]
  · sel; rw [e5, e6, z7, sub_zero]
  · sel; rw [h6 i (by omega), h7 i (by omega)]
  · rw [L2.rest _ (by far), e6, z7, sub_zero]

end
end Saber.M0

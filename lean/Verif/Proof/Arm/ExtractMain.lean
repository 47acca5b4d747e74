import Verif.Proof.Arm.ExtractBytes
/-!
# `KeccakF1600_StateExtractBytes`
-/
namespace Saber.Thumb
open Arm (Reg)
open Arm.Reg
open Op

/-- One pass through the loop that copies bytes to the output. -/
theorem outByte {T : Tabs} {s : St} {d e n : Nat} {v : Byte} {Q : St → Prop} (hd : d < 2 ^ 32) (he : e < 2 ^ 32) (hn : 1 ≤ n) (hn' : n < 2 ^ 32)
    (h1 : s.r r1 = BitVec.ofNat 32 d) (h4 : s.r r4 = BitVec.ofNat 32 e) (h3 : s.r r3 = BitVec.ofNat 32 n) (hv : s.m e = some v) (hacc : (s.m d).isSome)
    (h : ∀ s', s'.r r1 = BitVec.ofNat 32 (d + 1) → s'.r r4 = BitVec.ofNat 32 (e + 1) → s'.r r3 = BitVec.ofNat 32 (n - 1) → s'.z = decide (n - 1 = 0) →
      (∀ x, x ∉ [r1, r2, r3, r4] → s'.r x = s.r x) → Fr (fun x => x = d) s.m s'.m → s'.m d = some v → Q s') :
    Does T [ldrb r2 r4 0, adds r4 r4 1, strb r2 r1 0, adds r1 r1 1, subs r3 r3 1] s Q := by
  refine Does.cons (ldrb_ok h4 (by omega) hv) (Does.cons rfl ?_)
  obtain ⟨m', em, ev, fm⟩ := st8_ok v hacc
  generalize hs1 : (St.res _ _ _ : St) = s1
  have a2 : s1.r r2 = v.setWidth 32 := by rw [← hs1]; simp only [St.res]; rw [upd_ne _ _ (by decide), upd_same]
  have a4 : s1.r r4 = BitVec.ofNat 32 (e + 1) := by rw [← hs1]; simp only [St.res]; rw [upd_same, upd_ne _ _ (by decide), h4, ofNat_add']
  have a : ∀ x, x ≠ r2 → x ≠ r4 → s1.r x = s.r x := fun x hx hx' => by rw [← hs1]; simp only [St.res]; rw [upd_ne _ _ hx', upd_ne _ _ hx]
  have am : s1.m = s.m := by rw [← hs1]; rfl
  clear hs1
  refine Does.cons (s' := { s1 with m := m' }) ?_ ?_
  · unfold exec1; dsimp only
    rw [a _ (by decide) (by decide), h1, ofNat_add', Nat.add_zero, toNat_ofNat' _ hd, a2, BitVec.setWidth_setWidth_of_le _ (by decide), BitVec.setWidth_eq, am, em]
  refine Does.cons rfl (Does.cons rfl (Does.nil (h _ ?_ ?_ ?_ ?_ ?_ fm ev)))
  · simp only [St.res]
    rw [upd_ne _ _ (by decide), upd_same, a _ (by decide) (by decide), h1, ofNat_add']
  · simp only [St.res]
    rw [upd_ne _ _ (by decide), upd_ne _ _ (by decide), a4]
  · simp only [St.res]
    rw [upd_same, upd_ne _ _ (by decide), a _ (by decide) (by decide), h3, ofNat_sub _ _ hn hn']
  · simp only [St.res]
    rw [upd_ne _ _ (by decide), a _ (by decide) (by decide), h3, ofNat_sub _ _ hn hn', ofNat_beq_zero _ (by omega)]
  · intro x hx
    simp only [List.mem_cons, List.not_mem_nil, or_false, not_or] at hx
    simp only [St.res]
    rw [upd_ne _ _ hx.2.2.1, upd_ne _ _ hx.1, a x hx.2.1 hx.2.2.2]

/-- The loop that copies bytes to the output. -/
theorem outLoop {P : Prog Lab} (hP : P.code = code) : ∀ (n : Nat) (s : St) (d e : Nat) (b : Nat → Byte), n < 8 → d + (n + 1) ≤ 2 ^ 32 → e + (n + 1) ≤ 2 ^ 32 →
    s.r r1 = BitVec.ofNat 32 d → s.r r4 = BitVec.ofNat 32 e → s.r r3 = BitVec.ofNat 32 (n + 1) → (∀ i, i < n + 1 → s.m (e + i) = some (b i)) →
    (∀ i, i < n + 1 → (s.m (d + i)).isSome) → (∀ i j, i < n + 1 → j < n + 1 → d + i ≠ e + j) →
    To P (.run extractInLaneLoopC s) fun c => ∃ s', c = .run [.op (addi sp sp 8), .bx lr] s' ∧ s'.r r1 = BitVec.ofNat 32 (d + (n + 1)) ∧
      (∀ x, x ∉ [r1, r2, r3, r4] → s'.r x = s.r x) ∧ Fr (outR d (n + 1)) s.m s'.m ∧ ∀ i, i < n + 1 → s'.m (d + i) = some (b i) := by
  intro n
  induction n with
  | zero =>
    intro s d e b h8 hd he h1 h2 h3 hb hacc hne
    refine To.ops (outByte (by omega) (by omega) (by omega) (by omega) h1 h2 h3 (hb 0 (by omega)) (hacc 0 (by omega)) ?_)
    intro s' a1 a2 a3 az a am av
    refine To.step (c' := .run [.op (addi sp sp 8), .bx lr] s') ?_ (To.here ⟨s', rfl, a1, a, am.mono fun x hx => ⟨by omega, by omega⟩, fun i hi => ?_⟩)
    · show some (Conf.run (if s'.z then _ else _) s') = _
      rw [az, if_pos (by decide)]
    · obtain rfl : i = 0 := by omega
      exact av
  | succ n ih =>
    intro s d e b h8 hd he h1 h2 h3 hb hacc hne
    refine To.ops (outByte (by omega) (by omega) (by omega) (by omega) h1 h2 h3 (hb 0 (by omega)) (hacc 0 (by omega)) ?_)
    intro s' a1 a2 a3 az a am av
    refine To.step (c' := .run extractInLaneLoopC s') ?_ ((ih s' (d + 1) (e + 1) (fun i => b (i + 1)) (by omega) (by omega) (by omega) a1 a2 ?_ ?_ ?_ ?_).bind ?_)
    · show some (Conf.run (if s'.z then _ else P.code .extractInLaneLoop) s') = _
      rw [az, decide_eq_false (by omega), hP]; rfl
    · rw [a3]; rfl
    · intro i hi
      have := hne 0 (i + 1) (by omega) (by omega)
      rw [am.keep _ (by omega), show e + 1 + i = e + (i + 1) by omega]; exact hb _ (by omega)
    · intro i hi
      rw [am.acc, show d + 1 + i = d + (i + 1) by omega]; exact hacc _ (by omega)
    · intro i j hi hj
      have := hne (i + 1) (j + 1) (by omega) (by omega)
      omega
    · rintro c ⟨s2, rfl, e1, e2, em, ev⟩
      refine To.here ⟨s2, rfl, ?_, ?_, am.trans em (fun x hx => ⟨by omega, by omega⟩) (fun x hx => ⟨by have := hx.1; omega, by have := hx.2; omega⟩), ?_⟩
      · rw [e1]; congr 1; omega
      · intro x hx; rw [e2 x hx, a x hx]
      · intro i hi
        match i, hi with
        | 0, _ => rw [em.keep _ (fun hx => by have := hx.1; omega)]; exact av
        | i + 1, hi => rw [show d + (i + 1) = d + 1 + i by omega]; exact ev i (by omega)

theorem extractInLane_ok {P : Prog Lab} (hP : P.code = code) {s : St} {A S l d o n : Nat} {w : Nat → W} (hA : A + 200 ≤ 2 ^ 32) (hl : l < 25)
    (hn : 1 ≤ n) (ho : o + n ≤ 8) (hd : d + n ≤ 2 ^ 32) (h0 : s.r r0 = BitVec.ofNat 32 (A + 8 * l)) (h1 : s.r r1 = BitVec.ofNat 32 d)
    (h2 : s.r r2 = BitVec.ofNat 32 o) (h3 : s.r r3 = BitVec.ofNat 32 n) (hsp : s.r sp = BitVec.ofNat 32 S) (hS4 : S % 4 = 0) (hS8 : 8 ≤ S) (hS : S < 2 ^ 32)
    (hacc : ∀ x, stackR S 8 x → (s.m x).isSome) (ht : Table s.m (s.r r7) fromConstants) (hT : (s.r r7).toNat + 4 * fromConstants.length ≤ 2 ^ 32)
    (hTS : ∀ x, (s.r r7).toNat ≤ x → x < (s.r r7).toNat + 4 * fromConstants.length → ¬ stackR S 8 x)
    (hb : ∀ i, i < n → (s.m (d + i)).isSome) (hbS : ∀ i, i < n → ¬ stackR S 8 (d + i)) (hw : Words s.m A w) :
    To P (.run (code .extractInLane) s) fun c => ∃ s', c = P.jump (s.r lr) s' ∧ s'.r r0 = BitVec.ofNat 32 (A + 8 * (l + 1)) ∧
      s'.r r1 = BitVec.ofNat 32 (d + n) ∧ (∀ x, x ∉ [r0, r1, r2, r3, r4, r5] → s'.r x = s.r x) ∧
      Fr (fun x => outR d n x ∨ stackR S 8 x) s.m s'.m ∧ ∀ i, i < n → s'.m (d + i) = some (sbyte w (8 * l + o + i)) := by
  show To P (.run (ops _ ++ _) s) _
  obtain ⟨s1, e1, a0, a4, a5, a, am⟩ := ldm_ok (T := P.tabs) r4 r5 (by decide) hA hl h0 hw
  obtain ⟨m2, e2, f2, l2⟩ := push_ok (T := P.tabs) (s := s1) [r0, r3] (S := S) (by rw [a _ (by decide), hsp]) hS4 hS8 hS
    (by rw [am]; exact hacc)
  refine To.ops (Does.cons e1 (Does.cons e2 (Does.nil ?_)))
  rw [am] at f2
  have l20 : ld32 m2 (S - 8) = some (s1.r r0) := l2 0 (by decide)
  have l21 : ld32 m2 (S - 8 + 4) = some (s1.r r3) := l2 1 (by decide)
  clear l2 e2 e1
  generalize hs3 : ({ s1 with m := m2, r := _ } : St) = s3
  have csp : s3.r sp = BitVec.ofNat 32 (S - 8) := by
    rw [← hs3]; dsimp only
    rw [upd_same]; rfl
  have c : ∀ x, x ≠ sp → s3.r x = s1.r x := fun x hx => by
    rw [← hs3]; dsimp only
    rw [upd_ne _ _ hx]
  have cm : s3.m = m2 := by rw [← hs3]
  clear hs3
  refine To.ops ((fromBitInterleaving_ok P.tabs r4 r5 r0 r3 r7 s3 (by decide) (by
    rw [cm, c _ (by decide), a _ (by decide)]; exact ht.fr f2 hT hTS)).mono ?_)
  rintro s4 ⟨b4, b5, b, bm⟩
  rw [c _ (by decide), c _ (by decide), a4, a5] at b4 b5
  rw [cm] at bm
  obtain ⟨r', e5, p5, q5⟩ := pop_ok (T := P.tabs) (s := s4) [r0, r3] (S := S - 8) (by rw [b _ (by decide) (by decide) (by decide) (by decide), csp]) (by decide)
    (by simp only [List.length_cons, List.length_nil]; omega)
    (v := fun i => if i = 0 then s1.r r0 else s1.r r3) (by
      intro i hi
      rw [bm]
      match i, hi with
      | 0, _ => exact l20
      | 1, _ => exact l21)
  have p0 : r' r0 = s1.r r0 := p5 0 (by decide)
  have p3 : r' r3 = s1.r r3 := p5 1 (by decide)
  clear p5
  generalize hs5 : ({ s4 with r := _ } : St) = s5 at e5
  have g0 : s5.r r0 = BitVec.ofNat 32 (A + 8 * (l + 1)) := by
    rw [← hs5]; dsimp only; rw [upd_ne _ _ (by decide), p0, a0]
  have g3 : s5.r r3 = BitVec.ofNat 32 n := by
    rw [← hs5]; dsimp only; rw [upd_ne _ _ (by decide), p3, a _ (by decide), h3]
  have g4 : s5.r r4 = unLow (w (2 * l)) (w (2 * l + 1)) := by
    rw [← hs5]; dsimp only; rw [upd_ne _ _ (by decide), q5 _ (by decide), b4]
  have g5 : s5.r r5 = unHigh (w (2 * l)) (w (2 * l + 1)) := by
    rw [← hs5]; dsimp only; rw [upd_ne _ _ (by decide), q5 _ (by decide), b5]
  have gsp : s5.r sp = BitVec.ofNat 32 S := by
    rw [← hs5]; dsimp only
    rw [upd_same]
    congr 1; simp only [List.length_cons, List.length_nil]; omega
  have g : ∀ x, x ∉ [r0, r3, r4, r5, sp] → s5.r x = s.r x := fun x hx => by
    simp only [List.mem_cons, List.not_mem_nil, or_false, not_or] at hx
    rw [← hs5]; dsimp only
    rw [upd_ne _ _ hx.2.2.2.2, q5 _ (by simp [hx]), b x (by simp [hx]) (by simp [hx]) (by simp [hx]) (by simp [hx]), c x (by simp [hx]), a x (by simp [hx])]
  have gm : s5.m = m2 := by rw [← hs5]; exact bm
  clear hs5 q5 p0 p3
  obtain ⟨m6, e6, f6, l6⟩ := push_ok (T := P.tabs) (s := s5) [r4, r5] (S := S) gsp hS4 hS8 hS (by
    intro x hx
    rw [gm, f2.acc]; exact hacc x hx)
  rw [gm] at f6
  have l60 : ld32 m6 (S - 8) = some (unLow (w (2 * l)) (w (2 * l + 1))) := by rw [← g4]; exact l6 0 (by decide)
  have l61 : ld32 m6 (S - 8 + 4) = some (unHigh (w (2 * l)) (w (2 * l + 1))) := by rw [← g5]; exact l6 1 (by decide)
  have bytes : ∀ i, i < 8 → m6 (S - 8 + i) = some (sbyte w (8 * l + i)) := by
    intro i hi
    by_cases h4 : i < 4
    · rw [ld32_bytes l60 i h4, byteOf_low _ _ _ h4]
    · have := ld32_bytes l61 (i - 4) (by omega)
      rw [show S - 8 + 4 + (i - 4) = S - 8 + i by omega] at this
      rw [this, byteOf_high _ _ _ (by omega), show 8 * l + 4 + (i - 4) = 8 * l + i by omega]
  refine To.ops (Does.cons e5 (Does.cons e6 (Does.cons rfl (Does.cons rfl (Does.nil ?_)))))
  clear e5 e6 l6
  generalize hs7 : (St.res _ _ _ : St) = s7
  have i4 : s7.r r4 = BitVec.ofNat 32 (S - 8 + o) := by
    rw [← hs7]; simp only [St.res, Alu.eval]
    rw [upd_same, upd_same, upd_same, upd_ne _ _ (by decide), upd_ne _ _ (by decide), g _ (by decide), h2, ofNat_add']; rfl
  have isp : s7.r sp = BitVec.ofNat 32 (S - 8) := by
    rw [← hs7]; simp only [St.res]
    rw [upd_ne _ _ (by decide), upd_ne _ _ (by decide), upd_same]; rfl
  have i' : ∀ x, x ≠ r4 → x ≠ sp → s7.r x = s5.r x := fun x hx hx' => by
    rw [← hs7]; simp only [St.res]
    rw [upd_ne _ _ hx, upd_ne _ _ hx, upd_ne _ _ hx']
  have im : s7.m = m6 := by rw [← hs7]; rfl
  clear hs7
  obtain ⟨n, rfl⟩ : ∃ k, n = k + 1 := ⟨n - 1, by omega⟩
  refine (outLoop hP n s7 d (S - 8 + o) (fun i => sbyte w (8 * l + o + i)) (by omega) hd (by omega) ?_ i4 ?_ ?_ ?_ ?_).bind ?_
  · rw [i' _ (by decide) (by decide), g _ (by decide), h1]
  · rw [i' _ (by decide) (by decide), g3]
  · intro i hi
    rw [im, Nat.add_assoc, bytes _ (by omega), Nat.add_assoc]
  · intro i hi
    rw [im, f6.acc, f2.acc]; exact hb i hi
  · intro i j hi hj e
    exact hbS i hi ⟨by omega, by omega⟩
  rintro _ ⟨s8, rfl, j1, j, jm, jv⟩
  rw [im] at jm
  have fr8 : Fr (fun x => outR d (n + 1) x ∨ stackR S 8 x) s.m s8.m :=
    (f2.trans f6 (S'' := stackR S 8) (fun _ h => h) (fun _ h => h)).trans jm (fun _ h => .inr h) (fun _ h => .inl h)
  refine To.step (c' := .run [.bx lr] { s8 with r := upd s8.r sp (s8.r sp + BitVec.ofNat 32 8) }) rfl
    (To.step rfl (To.here ⟨{ s8 with r := upd s8.r sp (s8.r sp + BitVec.ofNat 32 8) }, ?_, ?_, ?_, ?_, fr8, jv⟩))
  · dsimp only
    rw [upd_ne _ _ (by decide), j _ (by decide), i' _ (by decide) (by decide), g _ (by decide)]
  · dsimp only
    rw [upd_ne _ _ (by decide), j _ (by decide), i' _ (by decide) (by decide), g0]
  · dsimp only
    rw [upd_ne _ _ (by decide), j1]
  · intro x hx
    simp only [List.mem_cons, List.not_mem_nil, or_false, not_or] at hx
    dsimp only
    by_cases hx' : x = sp
    · subst hx'
      rw [upd_same, j _ (by decide), isp, ofNat_add', hsp]; congr 1; omega
    · rw [upd_ne _ _ hx', j x (by simp [hx]), i' x (by simp [hx]) hx', g x (by simp [hx, hx'])]

/-- What a call of `KeccakF1600_StateExtractBytes` needs. -/
structure ExtractCall (f : Lab → W) (T : Tabs) (s : St) (A S d o n : Nat) (w : Nat → W) : Prop where
  ret : (retLabels.map f).Nodup
  lrOut : s.r lr ∉ retLabels.map f
  hA : A + 200 ≤ 2 ^ 32
  hd : d + n ≤ 2 ^ 32
  hon : o + n ≤ 200
  a0 : s.r r0 = BitVec.ofNat 32 A
  a1 : s.r r1 = BitVec.ofNat 32 d
  a2 : s.r r2 = BitVec.ofNat 32 o
  a3 : s.r r3 = BitVec.ofNat 32 n
  asp : s.r sp = BitVec.ofNat 32 S
  S4 : S % 4 = 0
  S32 : 32 ≤ S
  hS : S < 2 ^ 32
  acc : ∀ x, stackR S 32 x → (s.m x).isSome
  tab : Table s.m (T .from) fromConstants
  tabB : (T .from).toNat + 16 ≤ 2 ^ 32
  tabS : ∀ x, (T .from).toNat ≤ x → x < (T .from).toNat + 16 → ¬ stackR S 32 x
  tabD : ∀ x, (T .from).toNat ≤ x → x < (T .from).toNat + 16 → ¬ outR d n x
  out : ∀ x, outR d n x → (s.m x).isSome
  outS : ∀ x, outR d n x → ¬ stackR S 32 x
  outA : ∀ x, outR d n x → ¬ stateR A x
  words : Words s.m A w
  AS : ∀ x, stateR A x → ¬ stackR S 32 x

/-- The memory that the function changes. -/
def extractR (S d n x : Nat) : Prop := outR d n x ∨ stackR S 32 x

/-- The state of the machine after `k` of the bytes, in front of lane `l`. -/
structure ExtractInv (s0 s : St) (A S d o n : Nat) (w : Nat → W) (k l : Nat) : Prop where
  q0 : s.r r0 = BitVec.ofNat 32 (A + 8 * l)
  q1 : s.r r1 = BitVec.ofNat 32 (d + k)
  qsp : s.r sp = BitVec.ofNat 32 (S - 24)
  qo : ∀ x, x ∉ [r0, r1, r2, r3, r4, r5, r6, r7, r8, lr, sp] → s.r x = s0.r x
  fr : Fr (extractR S d n) s0.m s.m
  low : ∀ i, i < 2 → ld32 s.m (S - 24 + 4 * i) = some (s0.r ([r8, r7].getD i r0))
  high : ∀ i, i < 4 → ld32 s.m (S - 16 + 4 * i) = some (s0.r ([r4, r5, r6, lr].getD i r0))
  kn : k ≤ n
  bytes : ∀ i, i < k → s.m (d + i) = some (sbyte w (o + i))

/-- What the function does. -/
def ExtractDone (s0 : St) (S d o n : Nat) (w : Nat → W) (c : Conf Lab) : Prop :=
  ∃ s', c = .left (s0.r lr) s' ∧ (∀ x, x ∉ [r0, r1, r2, r3, lr] → s'.r x = s0.r x) ∧ Fr (extractR S d n) s0.m s'.m ∧
    ∀ i, i < n → s'.m (d + i) = some (sbyte w (o + i))

variable {f : Lab → W} {T : Tabs} {s0 s : St} {A S d o n k l : Nat} {w : Nat → W}

/-- The end of the function. -/
theorem extractExit_ok (H : ExtractCall f T s0 A S d o n w) (h : ExtractInv s0 s A S d o n w n l) :
    To (program f T) (.run extractExitC s) (ExtractDone s0 S d o n w) := by
  have S32 := H.S32
  have hS := H.hS
  obtain ⟨r', e5, p5, q5⟩ := pop_ok (T := T) (s := s) [r4, r7] (S := S - 24) h.qsp (by decide)
    (by simp only [List.length_cons, List.length_nil]; omega) (v := fun i => s0.r ([r8, r7].getD i r0)) (by
      intro i hi
      exact h.low i hi)
  unfold extractExitC
  refine To.ops (Does.cons e5 (Does.cons rfl (Does.nil ?_)))
  generalize hs6 : ({ s with r := _ } : St) = s6
  have p4 : r' r4 = s0.r r8 := p5 0 (by decide)
  have p7 : r' r7 = s0.r r7 := p5 1 (by decide)
  have g8 : s6.r r8 = s0.r r8 := by
    rw [← hs6]; dsimp only
    rw [upd_same, upd_ne _ _ (by decide), p4]
  have g7 : s6.r r7 = s0.r r7 := by
    rw [← hs6]; dsimp only
    rw [upd_ne _ _ (by decide), upd_ne _ _ (by decide), p7]
  have gsp : s6.r sp = BitVec.ofNat 32 (S - 16) := by
    rw [← hs6]; dsimp only
    rw [upd_ne _ _ (by decide), upd_same]
    congr 1; simp only [List.length_cons, List.length_nil]; omega
  have g : ∀ x, x ∉ [r4, r7, r8, sp] → s6.r x = s.r x := fun x hx => by
    simp only [List.mem_cons, List.not_mem_nil, or_false, not_or] at hx
    rw [← hs6]; dsimp only
    rw [upd_ne _ _ hx.2.2.1, upd_ne _ _ hx.2.2.2, q5 _ (by simp [hx])]
  have gm : s6.m = s.m := by rw [← hs6]
  clear hs6
  obtain ⟨r2', e7, p7, q7⟩ := ldRegs_ok s6.m [r4, r5, r6] (S - 16) s6.r (fun i => s0.r ([r4, r5, r6, lr].getD i r0)) (by decide)
    (by simp only [List.length_cons, List.length_nil]; omega) (by
      intro i hi
      have hi' : i < 4 := Nat.lt_succ_of_lt hi
      rw [gm, h.high i hi'])
  have hl : ld32 s6.m (S - 16 + 12) = some (s0.r lr) := by rw [gm]; exact h.high 3 (by omega)
  refine To.step (c' := .left (s0.r lr) { s6 with r := upd r2' sp (BitVec.ofNat 32 S) }) ?_ ?_
  · show (match ldRegs s6.m (s6.r sp) [r4, r5, r6] s6.r with
      | some r => match ld32 s6.m (s6.r sp + BitVec.ofNat 32 12).toNat with
        | some a => some ((program f T).jump a { s6 with r := upd r sp (s6.r sp + BitVec.ofNat 32 16) })
        | none => none
      | none => none) = _
    rw [gsp, e7]; dsimp only
    rw [ofNat_add', toNat_ofNat' _ (by omega), hl]; dsimp only
    rw [jump_out H.lrOut, ofNat_add', show S - 16 + 16 = S by omega]
  refine To.here ⟨_, rfl, ?_, ?_, ?_⟩
  · intro x hx
    simp only [List.mem_cons, List.not_mem_nil, or_false, not_or] at hx
    dsimp only
    have k4 : r2' r4 = s0.r r4 := p7 0 (by decide)
    have k5 : r2' r5 = s0.r r5 := p7 1 (by decide)
    have k6 : r2' r6 = s0.r r6 := p7 2 (by decide)
    by_cases x1 : x = sp
    · subst x1; rw [upd_same, H.asp]
    rw [upd_ne _ _ x1]
    by_cases x2 : x = r4
    · subst x2; exact k4
    by_cases x3 : x = r5
    · subst x3; exact k5
    by_cases x4 : x = r6
    · subst x4; exact k6
    rw [q7 x (by simp [x2, x3, x4])]
    by_cases x5 : x = r7
    · subst x5; exact g7
    by_cases x6 : x = r8
    · subst x6; exact g8
    rw [g x (by simp [x1, x2, x5, x6]), h.qo x (by simp [x1, x2, x3, x4, x5, x6, hx])]
  · dsimp only; rw [gm]; exact h.fr
  · dsimp only; rw [gm]; exact h.bytes

/-- The invariant after another chunk. -/
theorem ExtractInv.next (H : ExtractCall f T s0 A S d o n w) (h : ExtractInv s0 s A S d o n w k l) {s' : St} {l' j : Nat}
    (h0 : s'.r r0 = BitVec.ofNat 32 (A + 8 * l')) (h1 : s'.r r1 = BitVec.ofNat 32 (d + k + j)) (hsp : s'.r sp = s.r sp)
    (ho : ∀ x, x ∉ [r0, r1, r2, r3, r4, r5, r6, r7, r8, lr, sp] → s'.r x = s.r x)
    (hf : Fr (fun x => outR (d + k) j x ∨ stackR (S - 24) 8 x) s.m s'.m) (hkn : k + j ≤ n)
    (hb : ∀ i, i < j → s'.m (d + k + i) = some (sbyte w (o + k + i))) : ExtractInv s0 s' A S d o n w (k + j) l' where
  q0 := h0
  q1 := by rw [h1, Nat.add_assoc]
  qsp := hsp.trans h.qsp
  qo x hx := (ho x hx).trans (h.qo x hx)
  fr := h.fr.trans hf (fun _ h => h) fun x hx => hx.imp (fun hx => ⟨by have := hx.1; omega, by have := hx.2; omega⟩)
    fun hx => ⟨by have := hx.1; omega, by have := hx.2; omega⟩
  low i hi := by
    have := H.S32
    have hAS := H.outS
    rw [hf.ld32 fun j hj hx => ?_]
    · exact h.low i hi
    · rcases hx with hx | hx
      · exact hAS (S - 24 + 4 * i + j) ⟨by have := hx.1; omega, by have := hx.2; omega⟩ ⟨by omega, by omega⟩
      · have := hx.2; omega
  high i hi := by
    have := H.S32
    have hAS := H.outS
    rw [hf.ld32 fun j hj hx => ?_]
    · exact h.high i hi
    · rcases hx with hx | hx
      · exact hAS (S - 16 + 4 * i + j) ⟨by have := hx.1; omega, by have := hx.2; omega⟩ ⟨by omega, by omega⟩
      · have := hx.2; omega
  kn := hkn
  bytes i hi := by
    have S32 := H.S32
    by_cases hk : i < k
    · rw [hf.keep _ ?_]
      · exact h.bytes i hk
      · rintro (hx | hx)
        · have := hx.1; omega
        · exact H.outS (d + i) ⟨by omega, by omega⟩ ⟨by have := hx.1; omega, by have := hx.2; omega⟩
    · have := hb (i - k) (by omega)
      rwa [show d + k + (i - k) = d + i by omega, show o + k + (i - k) = o + i by omega] at this

/-- The table and the state are still there. -/
theorem ExtractInv.table (H : ExtractCall f T s0 A S d o n w) (h : ExtractInv s0 s A S d o n w k l) : Table s.m (T .from) fromConstants :=
  H.tab.fr h.fr H.tabB fun x h1 h2 h3 => h3.elim (H.tabD x h1 h2) (H.tabS x h1 h2)

@[inherit_doc ExtractInv.table] theorem ExtractInv.words (H : ExtractCall f T s0 A S d o n w) (h : ExtractInv s0 s A S d o n w k l) : Words s.m A w :=
  H.words.fr h.fr fun x h1 h2 => h2.elim (fun h2 => H.outA x h2 h1) (H.AS x h1)

/-- A call of `__KeccakF1600_StateExtractBytesInLane`. -/
theorem ExtractInv.inLane (H : ExtractCall f T s0 A S d o n w) (h : ExtractInv s0 s A S d o n w k l) {o' j : Nat} {lab : Lab} (hlab : lab ∈ retLabels)
    (h2 : s.r r2 = BitVec.ofNat 32 o') (h3 : s.r r3 = BitVec.ofNat 32 j) (h7 : s.r r7 = T .from) (hlr : s.r lr = f lab) (hj : 1 ≤ j) (hoj : o' + j ≤ 8)
    (hkn : k + j ≤ n) (hol : o + k = 8 * l + o') :
    To (program f T) (.run (code .extractInLane) s) fun c => ∃ s', c = .run (code lab) s' ∧ ExtractInv s0 s' A S d o n w (k + j) (l + 1) ∧ s'.r r8 = s.r r8 := by
  have S32 := H.S32
  have hS := H.hS
  have S4 := H.S4
  have hd := H.hd
  have hon := H.hon
  have sub : ∀ x, stackR (S - 24) 8 x → stackR S 32 x := fun x hx => ⟨by have := hx.1; omega, by have := hx.2; omega⟩
  refine (extractInLane_ok (P := program f T) rfl (S := S - 24) H.hA (by omega) hj hoj (by omega) h.q0 h.q1 h2 h3 h.qsp (by omega) (by omega) (by omega)
    ?_ (by rw [h7]; exact h.table H) (by rw [h7]; exact H.tabB) (by rw [h7]; exact fun x h1 h2 h3 => H.tabS x h1 h2 (sub x h3)) ?_ ?_ (h.words H)).bind ?_
  · intro x hx
    rw [h.fr.acc]; exact H.acc x (sub x hx)
  · intro i hi
    rw [h.fr.acc]; exact H.out _ ⟨by omega, by omega⟩
  · intro i hi hx
    exact H.outS _ ⟨by omega, by omega⟩ (sub _ hx)
  rintro c ⟨s', rfl, e0, e1, e, em, eb⟩
  refine To.here ⟨s', by rw [hlr, jump_ret H.ret hlab], ?_, e _ (by decide)⟩
  refine h.next H e0 e1 (e _ (by decide)) (fun x hx => e x ?_) em hkn (by rw [hol]; exact eb)
  simp only [List.mem_cons, List.not_mem_nil, or_false, not_or] at hx ⊢
  simp [hx]

/-- The invariant only concerns some registers. -/
theorem ExtractInv.congr (h : ExtractInv s0 s A S d o n w k l) {s' : St} (hr : ∀ x, x ∉ [r2, r3, r4, r5, r6, r7, r8, lr] → s'.r x = s.r x) (hm : s'.m = s.m) :
    ExtractInv s0 s' A S d o n w k l := by
  obtain ⟨a, b, c, d, e, f, g, h, j⟩ := h
  refine ⟨?_, ?_, ?_, ?_, by rw [hm]; exact e, by rw [hm]; exact f, by rw [hm]; exact g, h, by rw [hm]; exact j⟩
  · rw [hr _ (by decide)]; exact a
  · rw [hr _ (by decide)]; exact b
  · rw [hr _ (by decide)]; exact c
  · intro x hx; rw [hr x (by simp only [List.mem_cons, List.not_mem_nil, or_false, not_or] at hx ⊢; simp [hx])]; exact d x hx

theorem extractTail_ok (H : ExtractCall f T s0 A S d o n w) (h : ExtractInv s0 s A S d o n w k l) (hkl : k < n → 8 * l = o + k)
    (h3 : s.r r3 = BitVec.ofNat 32 (n - k)) (hk : n - k < 8) : To (program f T) (.run extractTailC s) (ExtractDone s0 S d o n w) := by
  have hd := H.hd
  have hon := H.hon
  have kn := h.kn
  unfold extractTailC
  refine To.step rfl ?_
  generalize hs1 : ({ s with z := _, le := _ } : St) = s1
  have z1 : s1.z = decide (n - k = 0) := by
    rw [← hs1]; dsimp only; rw [h3]; exact ofNat_beq_zero _ (by omega)
  have e1 : s1.r = s.r := by rw [← hs1]
  have m1 : s1.m = s.m := by rw [← hs1]
  clear hs1
  have h1 := h.congr (s' := s1) (fun x _ => by rw [e1]) m1
  by_cases hz : n - k = 0
  · refine To.step (c' := .run extractExitC s1) ?_ ?_
    · show some (Conf.run (if s1.z then _ else _) s1) = _
      rw [z1, decide_eq_true hz, if_pos rfl]; rfl
    obtain rfl : k = n := by omega
    exact extractExit_ok H h1
  · refine To.step (c' := .run (ops [movi r2 0, adr r7 .from] ++ .bl .extractInLane .extractRet3 :: extractExitC) s1) ?_ ?_
    · show some (Conf.run (if s1.z then _ else _) s1) = _
      rw [z1, decide_eq_false hz]; rfl
    refine To.ops (Does.cons rfl (Does.cons rfl (Does.nil ?_)))
    refine To.step (c' := .run (code .extractInLane) _) rfl ?_
    generalize hs2 : (St.mk (upd _ lr _) _ _ _) = s2
    have c2 : s2.r r2 = BitVec.ofNat 32 0 := by
      rw [← hs2]; simp only [St.res]; rw [upd_ne _ _ (by decide), upd_ne _ _ (by decide), upd_same]
    have c7 : s2.r r7 = T .from := by
      rw [← hs2]; simp only [St.res]; rw [upd_ne _ _ (by decide), upd_same]; rfl
    have clr : s2.r lr = f .extractRet3 := by
      rw [← hs2]; simp only [St.res]; rw [upd_same]; rfl
    have c : ∀ x, x ∉ [r2, r7, lr] → s2.r x = s.r x := fun x hx => by
      simp only [List.mem_cons, List.not_mem_nil, or_false, not_or] at hx
      rw [← hs2]; simp only [St.res]; rw [upd_ne _ _ hx.2.2, upd_ne _ _ hx.2.1, upd_ne _ _ hx.1, e1]
    have cm : s2.m = s.m := by rw [← hs2]; exact m1
    clear hs2
    have h' := h.congr (s' := s2) (fun x hx => c x (by simp only [List.mem_cons, List.not_mem_nil, or_false, not_or] at hx ⊢; simp [hx])) cm
    have := hkl (by omega)
    refine (h'.inLane H (lab := .extractRet3) (by decide) c2 (by rw [c _ (by decide), h3]) c7 clr (by omega) (by omega) (by omega) (by omega)).bind ?_
    rintro _ ⟨s3, rfl, h3, -⟩
    rw [show k + (n - k) = n by omega] at h3
    exact extractExit_ok H h3

/-- A call of `__KeccakF1600_StateExtractLanes`. -/
theorem ExtractInv.lanes (H : ExtractCall f T s0 A S d o n w) (h : ExtractInv s0 s A S d o n w k l) {j : Nat} {lab : Lab} (hlab : lab ∈ retLabels)
    (h2 : s.r r2 = BitVec.ofNat 32 (j + 1)) (h3 : s.r r3 = T .from) (hlr : s.r lr = f lab) (hkn : k + 8 * (j + 1) ≤ n) (hol : o + k = 8 * l) :
    To (program f T) (.run (code .extractLanes) s) fun c =>
      ∃ s', c = .run (code lab) s' ∧ ExtractInv s0 s' A S d o n w (k + 8 * (j + 1)) (l + (j + 1)) ∧ s'.r r8 = s.r r8 := by
  have hd := H.hd
  have hon := H.hon
  refine To.step rfl ?_
  generalize hs1 : (St.res _ _ _ : St) = s1
  have c : ∀ x, x ≠ r4 → s1.r x = s.r x := fun x hx => by rw [← hs1]; simp only [St.res]; rw [upd_ne _ _ hx]
  have cm : s1.m = s.m := by rw [← hs1]; rfl
  have cz : s1.z = decide ((d + k) % 4 = 0) := by
    rw [← hs1]; simp only [St.res]; rw [h.q1]; exact shl30 _ (by omega)
  clear hs1
  have sub : ∀ x, outR (d + k) (8 * (j + 1)) x → outR d n x := fun x hx => ⟨by have := hx.1; omega, by have := hx.2; omega⟩
  have key : ∀ (lab' : Lab) (st : List Op) (rest : List I) (C : Nat → Prop), (∀ d, C d → C (d + 8)) → C (d + k) → Stores T st C →
      code lab' = ops [ldm r0 [r6, r7]] ++ (ops (fromBitInterleaving r6 r7 r5 r4 r3) ++ (ops st ++ (.bne lab' :: .bx lr :: rest))) →
      To (program f T) (.run (code lab') s1) fun c =>
        ∃ s', c = .run (code lab) s' ∧ ExtractInv s0 s' A S d o n w (k + 8 * (j + 1)) (l + (j + 1)) ∧ s'.r r8 = s.r r8 := by
    intro lab' st rest C hC hC' hst hcode
    refine (extractLoop (P := program f T) rfl hC hcode hst H.hA (T := T .from) H.tabB j s1 l (d + k) (by omega) hC' (by omega)
      (by rw [c _ (by decide), h.q0]) (by rw [c _ (by decide), h.q1]) (by rw [c _ (by decide), h2]) (by rw [c _ (by decide), h3])
      (by rw [cm]; exact h.table H) ?_ ?_ ?_ (by rw [cm]; exact h.words H)).bind ?_
    · exact fun x h1 h2 h3 => H.tabD x h1 h2 (sub x h3)
    · intro x hx
      rw [cm, h.fr.acc]; exact H.out x (sub x hx)
    · exact fun x hx => H.outA x (sub x hx)
    · rintro c' ⟨s', rfl, e0, e1, e, em, eb⟩
      rw [cm] at em
      refine To.here ⟨s', by rw [c _ (by decide), hlr, jump_ret H.ret hlab], ?_, by rw [e _ (by decide), c _ (by decide)]⟩
      refine h.next H e0 e1 (by rw [e _ (by decide), c _ (by decide)]) (fun x hx => ?_) (em.mono fun x hx => .inl hx) hkn (by rw [hol]; exact eb)
      simp only [List.mem_cons, List.not_mem_nil, or_false, not_or] at hx
      rw [e x (by simp [hx]), c x (by simp [hx])]
  by_cases hz : (d + k) % 4 = 0
  · refine To.step (c' := .run (code .extractLoopAligned) s1) ?_ ?_
    · show some (Conf.run (if s1.z then _ else _) s1) = _
      rw [cz, decide_eq_true hz]; rfl
    · exact key .extractLoopAligned _ extractLoopUnalignedC _ (fun d hd => by omega) hz (store_aligned T) rfl
  · refine To.step (c' := .run (code .extractLoopUnaligned) s1) ?_ ?_
    · show some (Conf.run (if s1.z then _ else _) s1) = _
      rw [cz, decide_eq_false hz]; rfl
    · exact key .extractLoopUnaligned _ [] _ (fun _ _ => trivial) trivial (store_unaligned T) rfl

theorem extractCheckLanes_ok (H : ExtractCall f T s0 A S d o n w) (h : ExtractInv s0 s A S d o n w k l) (hkl : k < n → 8 * l = o + k)
    (h3 : s.r r3 = BitVec.ofNat 32 (n - k)) : To (program f T) (.run extractCheckLanesC s) (ExtractDone s0 S d o n w) := by
  have hd := H.hd
  have hon := H.hon
  have kn := h.kn
  unfold extractCheckLanesC
  refine To.step rfl ?_
  generalize hs1 : (St.res _ _ _ : St) = s1
  have c2 : s1.r r2 = BitVec.ofNat 32 ((n - k) / 8) := by
    rw [← hs1]; simp only [St.res]; rw [upd_same, h3, shr3 _ (by omega)]
  have c : ∀ x, x ≠ r2 → s1.r x = s.r x := fun x hx => by rw [← hs1]; simp only [St.res]; rw [upd_ne _ _ hx]
  have cm : s1.m = s.m := by rw [← hs1]; rfl
  have cz : s1.z = decide ((n - k) / 8 = 0) := by
    rw [← hs1]; simp only [St.res]; rw [h3, shr3 _ (by omega)]; exact ofNat_beq_zero _ (by omega)
  clear hs1
  have h' := h.congr (s' := s1) (fun x hx => c x fun e => hx (by simp [e])) cm
  by_cases hz : (n - k) / 8 = 0
  · refine To.step (c' := .run extractTailC s1) ?_ (extractTail_ok H h' hkl (by rw [c _ (by decide), h3]) (by omega))
    show some (Conf.run (if s1.z then _ else _) s1) = _
    rw [cz, decide_eq_true hz]; rfl
  refine To.step (c' := .run (ops [mov r8 r3, adr r3 .from] ++ .bl .extractLanes .extractRet2 :: extractRet2C) s1) ?_ ?_
  · show some (Conf.run (if s1.z then _ else _) s1) = _
    rw [cz, decide_eq_false hz]; rfl
  refine To.ops (Does.cons rfl (Does.cons rfl (Does.nil ?_)))
  refine To.step (c' := .run (code .extractLanes) _) rfl ?_
  generalize hs2 : (St.mk (upd _ lr _) _ _ _) = s2
  have d3 : s2.r r3 = T .from := by
    rw [← hs2]; dsimp only; rw [upd_ne _ _ (by decide), upd_same]; rfl
  have dsl : s2.r r8 = BitVec.ofNat 32 (n - k) := by
    rw [← hs2]; dsimp only; rw [upd_ne _ _ (by decide), upd_ne _ _ (by decide), upd_same, c _ (by decide), h3]
  have dlr : s2.r lr = f .extractRet2 := by
    rw [← hs2]; dsimp only; rw [upd_same]; rfl
  have dd : ∀ x, x ∉ [r3, r8, lr] → s2.r x = s1.r x := fun x hx => by
    simp only [List.mem_cons, List.not_mem_nil, or_false, not_or] at hx
    rw [← hs2]; dsimp only; rw [upd_ne _ _ hx.2.2, upd_ne _ _ hx.1, upd_ne _ _ hx.2.1]
  have dm : s2.m = s1.m := by rw [← hs2]
  clear hs2
  have h2 := h'.congr (s' := s2) (fun x hx => dd x (by simp only [List.mem_cons, List.not_mem_nil, or_false, not_or] at hx ⊢; simp [hx])) dm
  have kl := hkl (by omega)
  refine (h2.lanes H (j := (n - k) / 8 - 1) (lab := .extractRet2) (by decide) (by rw [dd _ (by decide), c2]; congr 1; omega) d3 dlr (by omega) (by omega)).bind ?_
  rintro _ ⟨s3, rfl, h5, esl⟩
  rw [dsl] at esl
  show To _ (.run (ops [mov r3 r8, lsls r3 r3 29, lsrs r3 r3 29] ++ extractTailC) s3) _
  refine To.ops (Does.cons rfl (Does.cons rfl (Does.cons rfl (Does.nil ?_))))
  generalize hs4 : (St.res _ _ _ : St) = s4
  have g3 : s4.r r3 = BitVec.ofNat 32 ((n - k) % 8) := by
    rw [← hs4]; simp only [St.res]; rw [upd_same, upd_same, upd_same, esl, shl_shr]
  have g : ∀ x, x ≠ r3 → s4.r x = s3.r x := fun x hx => by
    rw [← hs4]; simp only [St.res]; rw [upd_ne _ _ hx, upd_ne _ _ hx, upd_ne _ _ hx]
  have gm : s4.m = s3.m := by rw [← hs4]; rfl
  exact extractTail_ok H (h5.congr (s' := s4) (fun x hx => g x fun e => hx (by simp [e])) gm) (by omega) (by rw [g3]; congr 1; omega) (by omega)

/-- The effect of `KeccakF1600_StateExtractBytes`. -/
theorem extractBytes_ok (H : ExtractCall f T s0 A S d o n w) : To (program f T) (.run (code .extractBytes) s0) (ExtractDone s0 S d o n w) := by
  have S32 := H.S32
  have hS := H.hS
  have S4 := H.S4
  have hd := H.hd
  have hon := H.hon
  show To _ (.run extractBytesC s0) _
  unfold extractBytesC
  refine To.step rfl ?_
  generalize hs1 : ({ s0 with z := _, le := _ } : St) = s1
  have z1 : s1.z = decide (n = 0) := by
    rw [← hs1]; dsimp only; rw [H.a3]; exact ofNat_beq_zero _ (by omega)
  have e1 : s1.r = s0.r := by rw [← hs1]
  have m1 : s1.m = s0.m := by rw [← hs1]
  clear hs1
  by_cases hz : n = 0
  · subst hz
    refine To.step (c' := .run [.bx lr] s1) ?_ (To.step (c' := .left (s0.r lr) s1) ?_ (To.here ⟨s1, rfl, fun x _ => by rw [e1], ?_, fun i hi => absurd hi (by omega)⟩))
    · show some (Conf.run (if s1.z then _ else _) s1) = _
      rw [z1]; rfl
    · show some ((program f T).jump (s1.r lr) s1) = _
      rw [e1, jump_out H.lrOut]
    · rw [m1]; exact Fr.refl _ _
  refine To.step (c' := .run (ops _ ++ _) s1) (by
    show some (Conf.run (if s1.z then _ else _) s1) = _
    rw [z1, decide_eq_false hz]; rfl) ?_
  obtain ⟨ma, ea, fa, la⟩ := push_ok (T := T) (s := s1) [r4, r5, r6, lr] (S := S) (by rw [e1, H.asp]) S4 (by simp only [List.length_cons, List.length_nil]; omega) hS
    (fun x hx => by rw [m1]; exact H.acc x ⟨by have := hx.1; simp only [List.length_cons, List.length_nil] at this; omega, hx.2⟩)
  refine To.ops (Does.cons ea (Does.cons rfl ?_))
  generalize hs2 : ({ s1 with r := _, m := _ } : St) = s2
  have a4 : s2.r r4 = s0.r r8 := by
    rw [← hs2]; dsimp only
    rw [upd_same, upd_ne _ _ (by decide), e1]
  have asp : s2.r sp = BitVec.ofNat 32 (S - 16) := by
    rw [← hs2]; dsimp only
    rw [upd_ne _ _ (by decide), upd_same]; rfl
  have a : ∀ x, x ∉ [r4, sp] → s2.r x = s0.r x := fun x hx => by
    simp only [List.mem_cons, List.not_mem_nil, or_false, not_or] at hx
    rw [← hs2]; dsimp only
    rw [upd_ne _ _ hx.1, upd_ne _ _ hx.2, e1]
  have am : s2.m = ma := by rw [← hs2]
  clear hs2 ea
  rw [m1] at fa
  obtain ⟨mb, eb, fb, lb⟩ := push_ok (T := T) (s := s2) [r4, r7] (S := S - 16) asp (by omega) (by simp only [List.length_cons, List.length_nil]; omega) (by omega)
    (fun x hx => by
      rw [am, fa.acc]
      exact H.acc x ⟨by have := hx.1; simp only [List.length_cons, List.length_nil] at this; omega, by have := hx.2; omega⟩)
  rw [am] at fb
  refine Does.cons eb (Does.cons rfl (Does.cons rfl (Does.cons rfl (Does.cons rfl (Does.cons rfl (Does.nil ?_))))))
  generalize hs3 : (St.res _ _ _ : St) = s3
  have c0 : s3.r r0 = BitVec.ofNat 32 (A + 8 * (o / 8)) := by
    rw [← hs3]; simp only [St.res, Alu.eval]
    rw [upd_ne _ _ (by decide), upd_ne _ _ (by decide), upd_same, upd_ne _ _ (by decide), upd_ne _ _ (by decide), upd_ne _ _ (by decide), upd_same, upd_same,
      upd_ne _ _ (by decide), a _ (by decide), a _ (by decide), H.a0, H.a2, shr_shl _ (by omega), ofNat_add']
  have c2 : s3.r r2 = BitVec.ofNat 32 (o % 8) := by
    rw [← hs3]; simp only [St.res, Alu.eval]
    rw [upd_same, upd_same, upd_ne _ _ (by decide), upd_ne _ _ (by decide), upd_ne _ _ (by decide), upd_ne _ _ (by decide), a _ (by decide), H.a2, shl_shr]
  have cz : s3.z = decide (o % 8 = 0) := by
    rw [← hs3]; simp only [St.res, Alu.eval]
    rw [upd_same, upd_ne _ _ (by decide), upd_ne _ _ (by decide), upd_ne _ _ (by decide), upd_ne _ _ (by decide), a _ (by decide), H.a2, shl_shr]
    exact ofNat_beq_zero _ (by omega)
  have csp : s3.r sp = BitVec.ofNat 32 (S - 24) := by
    rw [← hs3]; simp only [St.res, Alu.eval]
    rw [upd_ne _ _ (by decide), upd_ne _ _ (by decide), upd_ne _ _ (by decide), upd_ne _ _ (by decide), upd_ne _ _ (by decide), upd_same]
    congr 1
  have c : ∀ x, x ∉ [r0, r2, r4, sp] → s3.r x = s0.r x := fun x hx => by
    simp only [List.mem_cons, List.not_mem_nil, or_false, not_or] at hx
    rw [← hs3]; simp only [St.res, Alu.eval]
    rw [upd_ne _ _ hx.2.1, upd_ne _ _ hx.2.1, upd_ne _ _ hx.1, upd_ne _ _ hx.2.2.1, upd_ne _ _ hx.2.2.1, upd_ne _ _ hx.2.2.2, a x (by simp [hx])]
  have cm : s3.m = mb := by rw [← hs3]; rfl
  clear hs3 eb
  have fr3 : Fr (stackR S 32) s0.m s3.m := by
    rw [cm]
    refine fa.trans fb (fun x hx => ⟨?_, hx.2⟩) (fun x hx => ⟨?_, ?_⟩)
    · have := hx.1; simp only [List.length_cons, List.length_nil] at this; omega
    · have := hx.1; simp only [List.length_cons, List.length_nil] at this; omega
    · have := hx.2; omega
  have l24 : ∀ i, i < 2 → ld32 s3.m (S - 24 + 4 * i) = some (s0.r ([r8, r7].getD i r0)) := by
    intro i hi
    have := lb i hi
    rw [cm]
    simp only [List.length_cons, List.length_nil, Nat.sub_sub] at this
    match i, hi with
    | 0, _ => exact this.trans (congrArg some a4)
    | 1, _ => exact this.trans (congrArg some (a r7 (by decide)))
  have l16 : ∀ i, i < 4 → ld32 s3.m (S - 16 + 4 * i) = some (s0.r ([r4, r5, r6, lr].getD i r0)) := by
    intro i hi
    have := la i hi
    rw [cm, fb.ld32 fun j hj hx => by have := hx.2; omega]
    rw [e1] at this
    match i, hi with
    | 0, _ => exact this
    | 1, _ => exact this
    | 2, _ => exact this
    | 3, _ => exact this
  have inv : ExtractInv s0 s3 A S d o n w 0 (o / 8) := by
    refine ⟨c0, by rw [c _ (by decide), H.a1]; rfl, csp, fun x hx => c x ?_, fr3.mono fun x hx => .inr hx, l24, l16, by omega, fun i hi => absurd hi (by omega)⟩
    simp only [List.mem_cons, List.not_mem_nil, or_false, not_or] at hx ⊢; simp [hx]
  by_cases ho : o % 8 = 0
  · refine To.step (c' := .run extractCheckLanesC s3) ?_ (extractCheckLanes_ok H inv (by omega) (by rw [c _ (by decide), H.a3]; rfl))
    show some (Conf.run (if s3.z then _ else _) s3) = _
    rw [cz, decide_eq_true ho]; rfl
  refine To.step (c' := .run (ops [movs r4 r3, movi r5 8, alu .sub r5 r5 r2, cmp r4 r5] ++ .ble .extractAlign :: .op (movs r4 r5) :: extractAlignC) s3) (by
    show some (Conf.run (if s3.z then _ else _) s3) = _
    rw [cz, decide_eq_false ho]; rfl) ?_
  refine To.ops (Does.cons rfl (Does.cons rfl (Does.cons rfl (Does.cons rfl (Does.nil ?_)))))
  generalize hs4 : (St.mk _ _ _ _) = s4
  have d4 : s4.r r4 = BitVec.ofNat 32 n := by
    rw [← hs4]; simp only [St.res]
    rw [upd_ne _ _ (by decide), upd_ne _ _ (by decide), upd_same, c _ (by decide), H.a3]
  have d5 : s4.r r5 = BitVec.ofNat 32 (8 - o % 8) := by
    rw [← hs4]; simp only [St.res, Alu.eval]
    rw [upd_same, upd_same, upd_ne _ _ (by decide), upd_ne _ _ (by decide), c2, ofNat_sub _ _ (by omega) (by omega)]
  have dd : ∀ x, x ∉ [r4, r5] → s4.r x = s3.r x := fun x hx => by
    simp only [List.mem_cons, List.not_mem_nil, or_false, not_or] at hx
    rw [← hs4]; simp only [St.res]; rw [upd_ne _ _ hx.2, upd_ne _ _ hx.2, upd_ne _ _ hx.1]
  have dm : s4.m = s3.m := by rw [← hs4]; rfl
  have dle : s4.le = some (decide (n ≤ 8 - o % 8)) := by
    have : s4.le = some ((s4.r r4).sle (s4.r r5)) := by rw [← hs4]
    rw [this, d4, d5, sle_ofNat _ _ (by omega) (by omega)]
  clear hs4
  have align : ∀ s5 : St, s5.r r4 = BitVec.ofNat 32 (min n (8 - o % 8)) → (∀ x, x ∉ [r4, r5] → s5.r x = s3.r x) → s5.m = s3.m →
      To (program f T) (.run extractAlignC s5) (ExtractDone s0 S d o n w) := by
    intro s5 g4 g gm
    unfold extractAlignC
    refine To.ops (Does.cons rfl (Does.cons rfl (Does.cons rfl (Does.cons rfl (Does.nil ?_)))))
    refine To.step (c' := .run (code .extractInLane) _) rfl ?_
    generalize hs6 : (St.mk (upd _ lr _) _ _ _) = s6
    have i3 : s6.r r3 = BitVec.ofNat 32 (min n (8 - o % 8)) := by
      rw [← hs6]; simp only [St.res]
      rw [upd_ne _ _ (by decide), upd_ne _ _ (by decide), upd_same, upd_ne _ _ (by decide), upd_ne _ _ (by decide), g4]
    have isl : s6.r r8 = BitVec.ofNat 32 (n - min n (8 - o % 8)) := by
      rw [← hs6]; simp only [St.res, Alu.eval]
      rw [upd_ne _ _ (by decide), upd_ne _ _ (by decide), upd_ne _ _ (by decide), upd_same, upd_same, g4, g _ (by decide), c _ (by decide), H.a3,
        ofNat_sub _ _ (by omega) (by omega)]
    have i7 : s6.r r7 = T .from := by
      rw [← hs6]; simp only [St.res]; rw [upd_ne _ _ (by decide), upd_same]; rfl
    have ilr : s6.r lr = f .extractRet1 := by
      rw [← hs6]; simp only [St.res]; rw [upd_same]; rfl
    have i : ∀ x, x ∉ [r3, r4, r5, r7, r8, lr] → s6.r x = s3.r x := fun x hx => by
      simp only [List.mem_cons, List.not_mem_nil, or_false, not_or] at hx
      rw [← hs6]; simp only [St.res]
      rw [upd_ne _ _ hx.2.2.2.2.2, upd_ne _ _ hx.2.2.2.1, upd_ne _ _ hx.1, upd_ne _ _ hx.2.2.2.2.1, upd_ne _ _ hx.1, g x (by simp [hx])]
    have im : s6.m = s3.m := by rw [← hs6]; exact gm
    clear hs6
    have inv6 := inv.congr (s' := s6) (fun x hx => i x (by simp only [List.mem_cons, List.not_mem_nil, or_false, not_or] at hx ⊢; simp [hx])) im
    refine (inv6.inLane H (lab := .extractRet1) (by decide) (by rw [i _ (by decide), c2]) i3 i7 ilr (by omega) (by omega) (by omega) (by omega)).bind ?_
    rintro _ ⟨s7, rfl, inv7, jsl⟩
    rw [isl] at jsl
    refine To.step (c' := .run extractCheckLanesC { s7 with r := upd s7.r r3 (s7.r r8) }) rfl ?_
    refine extractCheckLanes_ok H (inv7.congr (fun x hx => upd_ne _ _ fun e => hx (by simp [e])) rfl) (by omega) ?_
    dsimp only
    rw [upd_same, jsl, Nat.zero_add]
  by_cases hle : n ≤ 8 - o % 8
  · refine To.step (c' := .run extractAlignC s4) ?_ (align s4 (by rw [d4, Nat.min_eq_left hle]) dd dm)
    show s4.le.map _ = _
    rw [dle, decide_eq_true hle]; rfl
  · refine To.step (c' := .run (.op (movs r4 r5) :: extractAlignC) s4) ?_ (To.step (c' := .run extractAlignC (s4.res r4 (s4.r r5))) rfl (align _ ?_ ?_ dm))
    · show s4.le.map _ = _
      rw [dle, decide_eq_false hle]; rfl
    · simp only [St.res]; rw [upd_same, d5, Nat.min_eq_right (by omega)]
    · intro x hx
      simp only [St.res]
      rw [upd_ne _ _ fun e => hx (by simp [e]), dd x hx]

end Saber.Thumb

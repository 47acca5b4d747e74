import Verif.Model.Conc.Rng
import Verif.Proof.Rng
import Mathlib.Data.List.GetD
/-!
# Threads that share the random number generator: proofs
-/
namespace Saber.Conc
open Saber Spec Spec.Drbg

theorem run_bind {α β : Type} (p : Prog α) (f : α → Prog β) : ∀ m : DRBG,
    (p >>= f).run m = (p.run m >>= fun r => (f r.1).run r.2) := by
  show ∀ m, (p.bind f).run m = _
  induction p with
  | ret a => intro m; rfl
  | fail e => intro m; rfl
  | ld i k ih =>
    intro m
    simp only [Prog.bind, Prog.run]
    cases peek m i with
    | error e => rfl
    | ok v => exact ih v m
  | st i v k ih =>
    intro m
    simp only [Prog.bind, Prog.run]
    cases poke m i v with
    | error e => rfl
    | ok m' => exact ih m'
  | ldc k ih => intro m; exact ih _ m
  | stc v k ih => intro m; exact ih _

theorem run_pure {α : Type} (a : α) (m : DRBG) : (pure a : Prog α).run m = .ok (a, m) := rfl

theorem run_lift {α : Type} (c : CM α) (m : DRBG) : (Prog.lift c).run m = (c >>= fun a => .ok (a, m)) := by
  cases c <;> rfl

theorem run_loopP {σ : Type} (body : Nat → σ → Prog σ) (n : Nat) (s : σ) (m : DRBG) :
    (loopP n s body).run m = loop n (s, m) fun i r => (body i r.1).run r.2 := by
  induction n with
  | zero => rfl
  | succ n ih => rw [loop_succ, ← ih]; exact run_bind _ _ _

theorem peek_V (m : DRBG) (k : Nat) : peek m (32 + k) = rd m.V k := by
  unfold peek; rw [if_neg (by omega), Nat.add_sub_cancel_left]

theorem poke_V (m : DRBG) (k : Nat) (v : Byte) : poke m (32 + k) v = (wr m.V k v >>= fun V => .ok { m with V := V }) := by
  unfold poke; rw [if_neg (by omega), Nat.add_sub_cancel_left]; rfl

theorem run_incCtrP (k : Nat) : ∀ m : DRBG, (incCtrP k).run m = (incCtr m.V 0 k >>= fun V => .ok ((), { m with V := V })) := by
  induction k with
  | zero => intro m; rfl
  | succ k ih =>
    intro m
    unfold incCtrP incCtr
    simp only [Prog.run, peek_V, Nat.zero_add]
    rcases Nat.lt_or_ge k m.V.length with h | h
    · rw [rd_ok 0 h, ok_bind, ok_bind]
      by_cases hv : m.V.getD k 0 = 0xff
      · rw [if_pos hv, if_pos hv]
        simp only [Prog.run, poke_V]
        rw [wr_ok h, ok_bind, ok_bind, ok_bind, ih]
      · rw [if_neg hv, if_neg hv]
        simp only [Prog.run, peek_V, poke_V]
        rw [rd_ok 0 h, ok_bind, wr_ok h, ok_bind, ok_bind, ok_bind]
    · rw [rd_oob h, error_bind, error_bind, error_bind]

theorem run_lds (n : Nat) : ∀ (i : Nat) (m : DRBG) (vs : List Byte), vs.length = n →
    (∀ j, j < n → peek m (i + j) = .ok (vs.getD j 0)) → (lds i n).run m = .ok (vs, m) := by
  induction n with
  | zero =>
    intro i m vs hl _
    rw [List.length_eq_zero_iff] at hl
    subst hl; rfl
  | succ n ih =>
    intro i m vs hl h
    match vs, hl with
    | v :: vs, hl =>
      unfold lds
      simp only [Prog.run]
      have := h 0 (by omega)
      rw [Nat.add_zero] at this
      rw [this, ok_bind, run_bind, ih (i + 1) m vs (by simpa using hl), ok_bind]
      · rfl
      · intro j hj
        have := h (j + 1) (by omega)
        rw [show i + (j + 1) = i + 1 + j by omega] at this
        rw [this]; rfl

theorem run_key (m : DRBG) (h : m.Key.length = 32) : (lds 0 32).run m = .ok (m.Key, m) := by
  refine run_lds 32 0 m m.Key h fun j hj => ?_
  unfold peek
  rw [if_pos (by omega), Nat.zero_add, rd_ok 0 (by omega)]

theorem run_V (m : DRBG) (h : m.V.length = 16) : (lds 32 16).run m = .ok (m.V, m) := by
  refine run_lds 16 32 m m.V h fun j hj => ?_
  rw [peek_V, rd_ok 0 (by omega)]

theorem run_ECB (E : Cipher) (buffer : List Byte) (off : Nat) (m : DRBG) (hw : m.WF) :
    (AES256_ECBP E buffer off).run m = (AES256_ECB E m.Key m.V buffer off >>= fun b => .ok (b, m)) := by
  unfold AES256_ECBP
  rw [run_bind, run_key m hw.1, ok_bind, run_bind, run_V m hw.2, ok_bind, run_lift]

theorem run_ECB' (E : Cipher) (buffer : List Byte) (off : Nat) (K V : List Byte) (c : Int) (hK : K.length = 32) (hV : V.length = 16) :
    (AES256_ECBP E buffer off).run ⟨K, V, c⟩ = (AES256_ECB E K V buffer off >>= fun b => .ok (b, ⟨K, V, c⟩)) :=
  run_ECB E buffer off ⟨K, V, c⟩ ⟨hK, hV⟩

theorem incCtr16 (V : List Byte) (h : V.length = 16) : incCtr V 0 16 = .ok (toBE 16 (ofBE V + 1)) := by
  conv_lhs => rw [← toBE_ofBE16 V h]
  exact incCtr_16 _

/-- Two loops that do the same to corresponding states. -/
theorem loop_sim {σ τ : Type} (R : σ → τ) (Inv : σ → Prop) {b1 : Nat → σ → CM σ} {b2 : Nat → τ → CM τ} :
    ∀ n, (∀ i s, i < n → Inv s → b2 i (R s) = (b1 i s >>= fun s => .ok (R s)) ∧ ∀ s', b1 i s = .ok s' → Inv s') →
      ∀ s, Inv s → loop n (R s) b2 = (loop n s b1 >>= fun s => .ok (R s)) ∧ ∀ s', loop n s b1 = .ok s' → Inv s' := by
  intro n
  induction n with
  | zero => intro _ s hs; exact ⟨rfl, fun s' h => by cases h; exact hs⟩
  | succ n ih =>
    intro h s hs
    obtain ⟨e, hi⟩ := ih (fun i s hin => h i s (by omega)) s hs
    rw [loop_succ, loop_succ, e]
    cases hl : loop n s b1 with
    | error e => exact ⟨rfl, fun s' h => by rw [error_bind] at h; cases h⟩
    | ok s1 =>
      obtain ⟨e1, e2⟩ := h n s1 (by omega) (hi _ hl)
      rw [ok_bind, ok_bind, ok_bind]
      exact ⟨e1, e2⟩

theorem run_UpdateP {E : Cipher} (hE : BlockCipher E) (m : DRBG) (hw : m.WF) :
    (AES256_CTR_DRBG_UpdateP E).run m =
      (AES256_CTR_DRBG_Update E none m.Key m.V >>= fun r => .ok ((), { m with Key := r.1, V := r.2 })) := by
  unfold AES256_CTR_DRBG_UpdateP AES256_CTR_DRBG_Update
  rw [run_bind, run_loopP]
  have h1 := loop_sim (σ := List Byte × List Byte) (τ := List Byte × DRBG) (fun r => (r.2, { m with V := r.1 }))
    (fun r => r.1.length = 16 ∧ r.2.length = 48)
    (b1 := fun i r => do
      let V ← incCtr r.1 0 16
      let temp ← AES256_ECB E m.Key V r.2 (16 * i)
      pure (V, temp))
    (b2 := fun i r => (do
      incCtrP 16
      AES256_ECBP E r.1 (16 * i) : Prog (List Byte)).run r.2) 3
    (by
      intro i s hi hs
      rw [run_bind, run_incCtrP, incCtr16 _ hs.1, ok_bind, ok_bind, ok_bind]
      dsimp only
      rw [run_ECB' _ _ _ _ _ _ hw.1 (length_toBE _ _), AES256_ECB_ok hE _ _ _ _ (by omega), ok_bind, ok_bind]
      refine ⟨rfl, fun s' h => ?_⟩
      cases h
      exact ⟨length_toBE _ _, by dsimp only; rw [length_writeAt _ _ _ (by rw [hE]; omega)]; exact hs.2⟩)
    (m.V, uninit 8 70 48) ⟨hw.2, length_uninit _ _ _⟩
  obtain ⟨e, hi⟩ := h1
  dsimp only at e
  rw [show ((uninit 8 70 48, m) : List Byte × DRBG) = (uninit 8 70 48, { m with V := m.V }) from rfl, e]
  show _ = ((loop 3 (m.V, uninit 8 70 48) (fun i r => do
      let V ← incCtr r.1 0 16
      let temp ← AES256_ECB E m.Key V r.2 (16 * i)
      pure (V, temp)) >>= _) >>= _)
  cases hl : loop 3 (m.V, uninit 8 70 48) (fun i (r : List Byte × List Byte) => do
      let V ← incCtr r.1 0 16
      let temp ← AES256_ECB E m.Key V r.2 (16 * i)
      pure (V, temp)) with
  | error e => rfl
  | ok r =>
    obtain ⟨l1, l2⟩ := hi r hl
    rw [ok_bind, ok_bind, ok_bind]
    dsimp only [xorData]
    rw [pure_eq_ok, ok_bind, run_bind, run_loopP]
    have h2 := loop_sim (σ := List Byte) (τ := Unit × DRBG) (fun K => ((), { m with V := r.1, Key := K })) (fun K => K.length = 32)
      (b1 := fun i K => do
        let v ← rd r.2 (0 + i)
        wr K (0 + i) v)
      (b2 := fun i x => (do
        let v ← .lift (rd r.2 i)
        .st i v (.ret ()) : Prog Unit).run x.2) 32
      (by
        intro i K hi hK
        rw [run_bind, run_lift, Nat.zero_add, rd_ok 0 (by omega), ok_bind, ok_bind, ok_bind, wr_ok (by omega)]
        simp only [Prog.run, poke]
        rw [if_pos (by omega), wr_ok (by omega)]
        refine ⟨rfl, fun s' h => ?_⟩
        cases h; rw [List.length_set]; exact hK)
      m.Key hw.1
    obtain ⟨e2, hi2⟩ := h2
    rw [e2]
    show _ = ((loop 32 m.Key _ >>= _) >>= _)
    cases hl2 : loop 32 m.Key (fun i (K : List Byte) => do
        let v ← rd r.2 (0 + i)
        wr K (0 + i) v) with
    | error e => rfl
    | ok K =>
      rw [ok_bind, ok_bind, ok_bind, run_loopP]
      have h3 := loop_sim (σ := List Byte) (τ := Unit × DRBG) (fun V => ((), { m with V := V, Key := K })) (fun V => V.length = 16)
        (b1 := fun i V => do
          let v ← rd r.2 (32 + i)
          wr V (0 + i) v)
        (b2 := fun i x => (do
          let v ← .lift (rd r.2 (32 + i))
          .st (32 + i) v (.ret ()) : Prog Unit).run x.2) 16
        (by
          intro i V hi hV
          rw [run_bind, run_lift, Nat.zero_add, rd_ok 0 (by omega), ok_bind, ok_bind, ok_bind, wr_ok (by omega)]
          simp only [Prog.run, poke_V]
          rw [wr_ok (by omega)]
          refine ⟨rfl, fun s' h => ?_⟩
          cases h; rw [List.length_set]; exact hV)
        r.1 l1
      rw [h3.1]
      show _ = ((loop 16 r.1 _ >>= _) >>= _)
      cases loop 16 r.1 (fun i (V : List Byte) => do
          let v ← rd r.2 (32 + i)
          wr V (0 + i) v) with
      | error e => rfl
      | ok V => rfl

theorem run_randombytesLoopP {E : Cipher} (off : Nat) (xlen : Nat) : ∀ (x : List Byte) (i : Int) (m : DRBG), m.WF →
    (randombytesLoopP E x off i xlen).run m =
      (randombytesLoop E m.Key m.V x off i xlen >>= fun r => .ok (r.1, { m with V := r.2 })) ∧
    ∀ r, randombytesLoop E m.Key m.V x off i xlen = .ok r → r.2.length = 16 := by
  induction xlen using Nat.strongRecOn with
  | ind xlen ih =>
    intro x i m hw
    unfold randombytesLoopP randombytesLoop
    by_cases h0 : 0 < xlen
    · rw [dif_pos h0, dif_pos h0, run_bind, run_incCtrP, incCtr16 _ hw.2, ok_bind, ok_bind, ok_bind, run_bind]
      dsimp only
      rw [run_ECB' _ _ _ _ _ _ hw.1 (length_toBE _ _)]
      cases AES256_ECB E m.Key (toBE 16 (ofBE m.V + 1)) (uninit 8 72 16) 0 with
      | error e => exact ⟨rfl, fun r h => by cases h⟩
      | ok block =>
        rw [ok_bind, ok_bind, ok_bind]
        dsimp only
        by_cases h1 : 15 < xlen
        · rw [dif_pos h1, dif_pos h1, run_bind, run_lift]
          cases memcpy x (off + i.toNat) block 0 16 with
          | error e => exact ⟨rfl, fun r h => by cases h⟩
          | ok x =>
            rw [ok_bind, ok_bind, ok_bind, run_bind, run_lift]
            cases iadd i 16 with
            | error e => exact ⟨rfl, fun r h => by cases h⟩
            | ok i =>
              rw [ok_bind, ok_bind, ok_bind]
              exact ih (xlen - 16) (by omega) x i { m with V := toBE 16 (ofBE m.V + 1) } ⟨hw.1, length_toBE _ _⟩
        · rw [dif_neg h1, dif_neg h1, run_lift]
          cases memcpy x (off + i.toNat) block 0 xlen with
          | error e => exact ⟨rfl, fun r h => by cases h⟩
          | ok x => exact ⟨rfl, fun r h => by cases h; exact length_toBE _ _⟩
    · rw [dif_neg h0, dif_neg h0]
      exact ⟨rfl, fun r h => by cases h; exact hw.2⟩

/-- A thread that runs alone computes what the sequential model computes, undefined behaviour included. -/
theorem run_randombytesP {E : Cipher} (hE : BlockCipher E) (x : List Byte) (off xlen : Nat) (m : DRBG) (hw : m.WF) :
    (randombytesP E x off xlen).run m = randombytes E x off xlen m := by
  unfold randombytesP randombytes
  obtain ⟨e, hi⟩ := run_randombytesLoopP off xlen x 0 m hw
  rw [run_bind, e]
  cases hl : randombytesLoop E m.Key m.V x off 0 xlen with
  | error e => rfl
  | ok r =>
    rw [ok_bind, ok_bind, ok_bind, run_bind]
    dsimp only
    rw [run_UpdateP hE ⟨m.Key, r.2, m.reseed_counter⟩ ⟨hw.1, hi r hl⟩]
    dsimp only
    cases AES256_CTR_DRBG_Update E none m.Key r.2 with
    | error e => rfl
    | ok q =>
      rw [ok_bind, ok_bind, ok_bind]
      simp only [Prog.run]
      rw [run_bind, run_lift]
      cases iadd m.reseed_counter 1 <;> rfl

/-! ### Lock step -/

theorem poke_poke {m m' : DRBG} {i : Nat} {v : Byte} (h : poke m i v = .ok m') : poke m' i v = .ok m' := by
  unfold poke at *
  by_cases hi : i < 32
  · rw [if_pos hi] at *
    rcases Nat.lt_or_ge i m.Key.length with hl | hl
    · rw [wr_ok hl, ok_bind] at h
      cases h
      rw [wr_ok (by simpa using hl), ok_bind]
      simp
    · rw [wr_oob hl] at h; cases h
  · rw [if_neg hi] at *
    rcases Nat.lt_or_ge (i - 32) m.V.length with hl | hl
    · rw [wr_ok hl, ok_bind] at h
      cases h
      rw [wr_ok (by simpa using hl), ok_bind]
      simp
    · rw [wr_oob hl] at h; cases h

/-- One access by each of the remaining threads, all of which are about to do the same. -/
theorem round_step {α : Type} (p q : Prog α) (m' : DRBG)
    (h : ∀ (t : Nat) (thr : List (Prog α)), thr[t]? = some p → Threads.step t ⟨m', thr⟩ = .ok ⟨m', thr.set t q⟩) :
    ∀ (b a : Nat), Threads.exec (List.range' a b) ⟨m', List.replicate a q ++ List.replicate b p⟩ =
      .ok ⟨m', List.replicate (a + b) q⟩ := by
  intro b
  induction b with
  | zero => intro a; simp [Threads.exec]
  | succ b ih =>
    intro a
    rw [List.range'_succ]
    unfold Threads.exec
    rw [h a _ (by rw [List.getElem?_append_right (by simp)]; simp [List.replicate_succ]), ok_bind]
    have e : (List.replicate a q ++ List.replicate (b + 1) p).set a q = List.replicate (a + 1) q ++ List.replicate b p := by
      rw [List.set_append_right _ _ (by simp), List.length_replicate, Nat.sub_self, List.replicate_succ, List.set_cons_zero,
        List.replicate_succ', List.append_assoc]
      rfl
    rw [e, ih (a + 1), show a + 1 + b = a + (b + 1) by omega]

theorem exec_append {α : Type} (s1 s2 : List Nat) : ∀ c : Threads α,
    Threads.exec (s1 ++ s2) c = (Threads.exec s1 c >>= Threads.exec s2) := by
  induction s1 with
  | nil => intro c; rfl
  | cons t s1 ih =>
    intro c
    rw [List.cons_append]
    unfold Threads.exec
    cases c.step t with
    | error e => rfl
    | ok c => exact ih c

/-- Threads that do the same all take each step before any of them takes the next: they all get what one would get alone. -/
theorem lockstep {α : Type} (N : Nat) (p : Prog α) : ∀ (m : DRBG) (r : α × DRBG), p.run m = .ok r →
    ∃ rounds : Nat, Threads.exec ((List.replicate rounds (List.range (N + 1))).flatten) ⟨m, List.replicate (N + 1) p⟩ =
      .ok ⟨r.2, List.replicate (N + 1) (.ret r.1)⟩ := by
  have go (p q : Prog α) (m m' : DRBG) (r : α × DRBG)
      (h0 : ∀ thr : List (Prog α), thr[0]? = some p → Threads.step 0 ⟨m, thr⟩ = .ok ⟨m', thr.set 0 q⟩)
      (h : ∀ (t : Nat) (thr : List (Prog α)), thr[t]? = some p → Threads.step t ⟨m', thr⟩ = .ok ⟨m', thr.set t q⟩)
      (ih : ∃ rounds : Nat, Threads.exec ((List.replicate rounds (List.range (N + 1))).flatten) ⟨m', List.replicate (N + 1) q⟩ =
        .ok ⟨r.2, List.replicate (N + 1) (.ret r.1)⟩) :
      ∃ rounds : Nat, Threads.exec ((List.replicate rounds (List.range (N + 1))).flatten) ⟨m, List.replicate (N + 1) p⟩ =
        .ok ⟨r.2, List.replicate (N + 1) (.ret r.1)⟩ := by
    obtain ⟨rounds, hr⟩ := ih
    refine ⟨rounds + 1, ?_⟩
    rw [List.replicate_succ, List.flatten_cons, exec_append, List.range_eq_range', List.range'_succ]
    have : Threads.exec (0 :: List.range' (0 + 1) N) ⟨m, List.replicate (N + 1) p⟩ = .ok ⟨m', List.replicate (N + 1) q⟩ := by
      unfold Threads.exec
      rw [h0 _ (by simp [List.replicate_succ]), ok_bind]
      have := round_step p q m' h N 1
      rw [show 1 + N = N + 1 by omega] at this
      simpa [List.replicate_succ] using this
    rw [this, ok_bind]
    rw [← List.range'_succ, ← List.range_eq_range']
    exact hr
  induction p with
  | ret a =>
    intro m r h
    cases h
    exact ⟨0, rfl⟩
  | fail e => intro m r h; cases h
  | ld i k ih =>
    intro m r h
    unfold Prog.run at h
    cases hp : peek m i with
    | error e => rw [hp] at h; cases h
    | ok v =>
      rw [hp, ok_bind] at h
      have hs : ∀ (t : Nat) (thr : List (Prog α)), thr[t]? = some (.ld i k) → Threads.step t ⟨m, thr⟩ = .ok ⟨m, thr.set t (k v)⟩ := by
        intro t thr ht
        unfold Threads.step
        simp only [ht, hp, ok_bind, pure_eq_ok]
      exact go _ (k v) m m r (hs 0) hs (ih v m r h)
  | st i v k ih =>
    intro m r h
    unfold Prog.run at h
    cases hp : poke m i v with
    | error e => rw [hp] at h; cases h
    | ok m' =>
      rw [hp, ok_bind] at h
      refine go _ k m m' r ?_ ?_ (ih m' r h)
      · intro thr ht
        unfold Threads.step
        simp only [ht, hp, ok_bind, pure_eq_ok]
      · intro t thr ht
        unfold Threads.step
        simp only [ht, poke_poke hp, ok_bind, pure_eq_ok]
  | ldc k ih =>
    intro m r h
    have hs : ∀ (t : Nat) (thr : List (Prog α)), thr[t]? = some (.ldc k) →
        Threads.step t ⟨m, thr⟩ = .ok ⟨m, thr.set t (k m.reseed_counter)⟩ := by
      intro t thr ht
      unfold Threads.step
      simp only [ht, pure_eq_ok]
    exact go _ _ m m r (hs 0) hs (ih _ m r h)
  | stc v k ih =>
    intro m r h
    refine go _ k m { m with reseed_counter := v } r ?_ ?_ (ih _ r h)
    · intro thr ht
      unfold Threads.step
      simp only [ht, pure_eq_ok]
    · intro t thr ht
      unfold Threads.step
      simp only [ht, pure_eq_ok]

/-! ### Any schedule -/

/-- Whatever the other threads store in between, the thread makes at most `n` accesses, all inside `DRBG_ctx`, and ends with a result
that satisfies `Q` (or with an overflow of a signed integer). -/
def Safe {α : Type} (Q : α → Prop) : Nat → Prog α → Prop
  | _, .ret a => Q a
  | _, .fail e => e = .signedOverflow
  | n + 1, .ld i k => i < 48 ∧ ∀ v, Safe Q n (k v)
  | n + 1, .st i _ k => i < 48 ∧ Safe Q n k
  | n + 1, .ldc k => ∀ v, Safe Q n (k v)
  | n + 1, .stc _ k => Safe Q n k
  | 0, _ => False

theorem Safe.ret {α : Type} {Q : α → Prop} {n : Nat} {a : α} (h : Q a) : Safe Q n (.ret a) := by cases n <;> exact h

theorem Safe.fail {α : Type} {Q : α → Prop} {n : Nat} : Safe Q n (.fail .signedOverflow) := by cases n <;> rfl

theorem Safe.mono {α : Type} {Q R : α → Prop} (hQ : ∀ a, Q a → R a) (p : Prog α) : ∀ {n n' : Nat}, n ≤ n' → Safe Q n p → Safe R n' p := by
  induction p with
  | ret a => intro n n' _ h; cases n <;> exact .ret (hQ a h)
  | fail e => intro n n' _ h; cases n <;> cases n' <;> exact h
  | ld i k ih =>
    intro n n' hn h
    match n, n', hn with
    | 0, _, _ => exact h.elim
    | n + 1, n' + 1, hn => exact ⟨h.1, fun v => ih v (by omega) (h.2 v)⟩
  | st i v k ih =>
    intro n n' hn h
    match n, n', hn with
    | 0, _, _ => exact h.elim
    | n + 1, n' + 1, hn => exact ⟨h.1, ih (by omega) h.2⟩
  | ldc k ih =>
    intro n n' hn h
    match n, n', hn with
    | 0, _, _ => exact h.elim
    | n + 1, n' + 1, hn => exact fun v => ih v (by omega) (h v)
  | stc v k ih =>
    intro n n' hn h
    match n, n', hn with
    | 0, _, _ => exact h.elim
    | n + 1, n' + 1, hn => exact ih (n := n) (n' := n') (by omega) h

theorem Safe.bind {α β : Type} {Q : α → Prop} {R : β → Prop} {f : α → Prog β} {n' : Nat} (hf : ∀ a, Q a → Safe R n' (f a)) (p : Prog α) :
    ∀ {n : Nat}, Safe Q n p → Safe R (n + n') (p >>= f) := by
  show ∀ {n : Nat}, Safe Q n p → Safe R (n + n') (p.bind f)
  induction p with
  | ret a => intro n h; exact Safe.mono (fun _ h => h) _ (by omega) (hf a (by cases n <;> exact h))
  | fail e =>
    intro n h
    have : e = .signedOverflow := by cases n <;> exact h
    subst this; exact .fail
  | ld i k ih =>
    intro n h
    match n with
    | 0 => exact h.elim
    | n + 1 => rw [show n + 1 + n' = n + n' + 1 by omega]; exact ⟨h.1, fun v => ih v (h.2 v)⟩
  | st i v k ih =>
    intro n h
    match n with
    | 0 => exact h.elim
    | n + 1 => rw [show n + 1 + n' = n + n' + 1 by omega]; exact ⟨h.1, ih h.2⟩
  | ldc k ih =>
    intro n h
    match n with
    | 0 => exact h.elim
    | n + 1 => rw [show n + 1 + n' = n + n' + 1 by omega]; exact fun v => ih v (h v)
  | stc v k ih =>
    intro n h
    match n with
    | 0 => exact h.elim
    | n + 1 => rw [show n + 1 + n' = n + n' + 1 by omega]; exact ih (by exact h)

theorem Safe.lift {α : Type} {Q : α → Prop} {c : CM α} (h : Ok c Q) (n : Nat) : Safe Q n (.lift c) := by
  obtain ⟨a, e, ha⟩ := h
  rw [e]; exact .ret ha

theorem Safe.loopP {σ : Type} {body : Nat → σ → Prog σ} (I : σ → Prop) (b : Nat) : ∀ (n : Nat) (s : σ),
    (∀ i s, i < n → I s → Safe I b (body i s)) → I s → Safe I (n * b) (loopP n s body) := by
  intro n
  induction n with
  | zero => intro s _ h; exact .ret h
  | succ n ih =>
    intro s hb h
    rw [Nat.succ_mul]
    exact Safe.bind (fun s hs => hb n s (by omega) hs) _ (ih s (fun i s hi => hb i s (by omega)) h)

theorem Safe.seq {α β : Type} {Q : α → Prop} {R : β → Prop} {f : α → Prog β} {N : Nat} (n n' : Nat) (p : Prog α) (hp : Safe Q n p)
    (hf : ∀ a, Q a → Safe R n' (f a)) (hN : n + n' ≤ N) : Safe R N (p >>= f) :=
  Safe.mono (fun _ h => h) _ hN (Safe.bind hf p hp)

theorem Safe.ld {α : Type} {Q : α → Prop} {n i : Nat} {k : Byte → Prog α} (hi : i < 48) (h : ∀ v, Safe Q n (k v)) :
    Safe Q (n + 1) (.ld i k) := ⟨hi, h⟩

theorem Safe.st {α : Type} {Q : α → Prop} {n i : Nat} {v : Byte} {k : Prog α} (hi : i < 48) (h : Safe Q n k) :
    Safe Q (n + 1) (.st i v k) := ⟨hi, h⟩

theorem Safe.ldc {α : Type} {Q : α → Prop} {n : Nat} {k : Int → Prog α} (h : ∀ v, Safe Q n (k v)) : Safe Q (n + 1) (.ldc k) := h

theorem Safe.stc {α : Type} {Q : α → Prop} {n : Nat} {v : Int} {k : Prog α} (h : Safe Q n k) : Safe Q (n + 1) (.stc v k) := h

seal Safe

theorem safe_incCtrP (k : Nat) (hk : k ≤ 16) : Safe (fun _ => True) (2 * k + 1) (incCtrP k) := by
  induction k with
  | zero => exact .ret trivial
  | succ k ih =>
    unfold incCtrP
    refine Safe.ld (by omega) fun v => ?_
    beta_reduce
    split
    · exact Safe.st (n := 2 * k + 1) (by omega) (ih (by omega))
    · refine Safe.mono (fun _ h => h) _ (show 2 ≤ 2 * (k + 1) by omega) ?_
      exact Safe.ld (n := 1) (by omega) fun v => Safe.st (n := 0) (by omega) (.ret trivial)

theorem safe_lds (n : Nat) : ∀ i, i + n ≤ 48 → Safe (fun vs => vs.length = n) n (lds i n) := by
  induction n with
  | zero => intro i _; exact .ret rfl
  | succ n ih =>
    intro i h
    unfold lds
    exact Safe.ld (by omega) fun v => Safe.seq n 0 _ (ih (i + 1) (by omega)) (fun vs hv => .ret (by simp [hv])) (by omega)

theorem safe_ECB {E : Cipher} (hE : BlockCipher E) (buffer : List Byte) (off : Nat) (h : off + 16 ≤ buffer.length) :
    Safe (fun b => b.length = buffer.length) 48 (AES256_ECBP E buffer off) := by
  refine Safe.seq 32 16 _ (safe_lds 32 0 (by omega)) (fun key _ => ?_) (by omega)
  refine Safe.seq 16 0 _ (safe_lds 16 32 (by omega)) (fun ctr _ => ?_) (by omega)
  exact Safe.lift ⟨_, AES256_ECB_ok hE _ _ _ _ h, length_writeAt buffer off (E key ctr) (by rw [hE]; exact h)⟩ 0

theorem safe_UpdateP {E : Cipher} (hE : BlockCipher E) : Safe (fun _ => True) 291 (AES256_CTR_DRBG_UpdateP E) := by
  unfold AES256_CTR_DRBG_UpdateP
  refine Safe.seq (3 * 81) 48 _ (Safe.loopP (fun t : List Byte => t.length = 48) 81 3 _ (fun i s hi hs => ?_) (length_uninit _ _ _))
    (fun temp ht => ?_) (by omega)
  · exact Safe.seq 33 48 _ (safe_incCtrP 16 (by omega)) (fun _ _ => Safe.mono (fun b hb => hb.trans hs) _ (by omega)
      (safe_ECB hE s (16 * i) (by omega))) (by omega)
  · refine Safe.seq (32 * 1) (16 * 1) _ (Safe.loopP (fun _ => True) 1 32 () (fun i s hi _ => ?_) trivial)
      (fun _ _ => Safe.loopP (fun _ => True) 1 16 () (fun i s hi _ => ?_) trivial) (by omega)
    · exact Safe.seq 0 1 _ (Safe.lift (Q := fun _ => True) ⟨_, rd_ok 0 (by omega), trivial⟩ 0)
        (fun v _ => Safe.st (n := 0) (by omega) (.ret trivial)) (by omega)
    · exact Safe.seq 0 1 _ (Safe.lift (Q := fun _ => True) ⟨_, rd_ok 0 (by omega), trivial⟩ 0)
        (fun v _ => Safe.st (n := 0) (by omega) (.ret trivial)) (by omega)

theorem safe_iadd {α : Type} {Q : α → Prop} (a b : Int) (f : Int → Prog α) (n : Nat) (h : ∀ c, c = a + b → Safe Q n (f c)) :
    Safe Q n (Prog.lift (iadd a b) >>= f) := by
  unfold iadd ckInt
  split
  · exact h _ rfl
  · exact .fail

/-- `x` has its length, and its bytes outside of `off .. off+n` are those of `x0`. -/
def Frame (x0 : List Byte) (off n : Nat) (x : List Byte) : Prop :=
  x.length = x0.length ∧ x.take off = x0.take off ∧ x.drop (off + n) = x0.drop (off + n)

theorem Frame.write {x0 : List Byte} {off n : Nat} {x : List Byte} (h : Frame x0 off n x) (i : Nat) (vs : List Byte)
    (hi : i + vs.length ≤ n) (hx : off + n ≤ x0.length) : Frame x0 off n (writeAt x (off + i) vs) := by
  obtain ⟨h1, h2, h3⟩ := h
  refine ⟨(length_writeAt _ _ _ (by omega)).trans h1, ?_, ?_⟩
  · rw [← h2]
    have := congrArg (List.take off) (writeAt_take x vs (off + i) (by omega))
    rwa [List.take_take, List.take_take, Nat.min_eq_left (by omega)] at this
  · rw [← h3]
    have := congrArg (List.drop (n - (i + vs.length))) (writeAt_drop x vs (off + i) (by omega))
    rwa [List.drop_drop, List.drop_drop, show off + i + vs.length + (n - (i + vs.length)) = off + n by omega] at this

theorem safe_randombytesLoopP {E : Cipher} (hE : BlockCipher E) (x0 : List Byte) (off n : Nat) (hx : off + n ≤ x0.length) (xlen : Nat) :
    ∀ (x : List Byte) (i : Nat), i + xlen = n → Frame x0 off n x →
      Safe (Frame x0 off n) (81 * ((xlen + 15) / 16)) (randombytesLoopP E x off i xlen) := by
  induction xlen using Nat.strongRecOn with
  | ind xlen ih =>
    intro x i hi hF
    unfold randombytesLoopP
    by_cases h0 : 0 < xlen
    · rw [dif_pos h0]
      refine Safe.seq 33 (48 + 81 * ((xlen - 16 + 15) / 16)) _ (safe_incCtrP 16 (by omega)) (fun _ _ => ?_) (by omega)
      refine Safe.seq 48 (81 * ((xlen - 16 + 15) / 16)) _ (safe_ECB hE (uninit 8 72 16) 0 (by simp)) (fun block hb => ?_) (by omega)
      have hbl : block.length = 16 := hb.trans (length_uninit _ _ _)
      have hl := hF.1
      by_cases h1 : 15 < xlen
      · rw [dif_pos h1]
        refine Safe.seq 0 (81 * ((xlen - 16 + 15) / 16)) _ (Safe.lift (Q := Frame x0 off n) ⟨_, memcpy_ok _ _ _ _ _ (by omega)
          (by rw [Int.toNat_natCast]; omega), ?_⟩ 0) (fun x hF => ?_) (by omega)
        · rw [Int.toNat_natCast]
          exact hF.write i _ (by simp [hbl]; omega) hx
        · refine safe_iadd _ _ _ _ fun c hc => ?_
          subst hc
          exact ih (xlen - 16) (by omega) x (i + 16) (by omega) hF
      · rw [dif_neg h1]
        refine Safe.lift ⟨_, memcpy_ok _ _ _ _ _ (by omega) (by rw [Int.toNat_natCast]; omega), ?_⟩ _
        rw [Int.toNat_natCast]
        exact hF.write i _ (by simp [hbl]; omega) hx
    · rw [dif_neg h0]
      exact .ret hF

/-- The largest number of accesses to `DRBG_ctx` of a call for `n` bytes. -/
def accesses (n : Nat) : Nat := 81 * ((n + 15) / 16) + 293

theorem safe_randombytesP {E : Cipher} (hE : BlockCipher E) (x : List Byte) (off n : Nat) (hx : off + n ≤ x.length) :
    Safe (Frame x off n) (accesses n) (randombytesP E x off n) := by
  unfold randombytesP accesses
  refine Safe.seq _ (291 + 2) _ (safe_randombytesLoopP hE x off n hx n x 0 (by omega) ⟨rfl, rfl, rfl⟩) (fun x' hF => ?_) (by omega)
  refine Safe.seq 291 2 _ (safe_UpdateP hE) (fun _ _ => ?_) (by omega)
  exact Safe.ldc (n := 1) fun rc => safe_iadd _ _ _ _ fun c _ => Safe.stc (n := 0) (.ret hF)

unseal Safe

theorem peek_total {m : DRBG} (hw : m.WF) {i : Nat} (hi : i < 48) : ∃ v, peek m i = .ok v := by
  unfold peek
  split
  · exact ⟨_, rd_ok 0 (by rw [hw.1]; omega)⟩
  · exact ⟨_, rd_ok 0 (by rw [hw.2]; omega)⟩

theorem poke_total {m : DRBG} (hw : m.WF) {i : Nat} (hi : i < 48) (v : Byte) : ∃ m', poke m i v = .ok m' ∧ m'.WF := by
  unfold poke
  split
  · rw [wr_ok (by rw [hw.1]; omega)]
    exact ⟨_, rfl, by dsimp only; rw [List.length_set]; exact hw.1, hw.2⟩
  · rw [wr_ok (by rw [hw.2]; omega)]
    exact ⟨_, rfl, hw.1, by dsimp only; rw [List.length_set]; exact hw.2⟩

/-- The threads behave, whatever the schedule. -/
theorem exec_safe {α : Type} (Q : Nat → α → Prop) (sched : List Nat) : ∀ (c : Threads α) (B : Nat → Nat), c.mem.WF →
    (∀ t p, c.thr[t]? = some p → Safe (Q t) (B t) p) →
    match Threads.exec sched c with
    | .error e => e = .signedOverflow
    | .ok c' => c'.mem.WF ∧ c'.thr.length = c.thr.length ∧ ∀ t p, c'.thr[t]? = some p → Safe (Q t) (B t - sched.count t) p := by
  induction sched with
  | nil => intro c B hw h; exact ⟨hw, rfl, fun t p hp => by simpa using h t p hp⟩
  | cons t sched ih =>
    intro c B hw h
    unfold Threads.exec
    -- what is left to show after the step
    have fin (c1 : Threads α) (hw1 : c1.mem.WF) (hl : c1.thr.length = c.thr.length)
        (h1 : ∀ u p, c1.thr[u]? = some p → Safe (Q u) (if u = t then B t - 1 else B u) p) :
        match Threads.exec sched c1 with
        | .error e => e = .signedOverflow
        | .ok c' => c'.mem.WF ∧ c'.thr.length = c.thr.length ∧
            ∀ u p, c'.thr[u]? = some p → Safe (Q u) (B u - (t :: sched).count u) p := by
      have := ih c1 (fun u => if u = t then B t - 1 else B u) hw1 h1
      revert this
      cases Threads.exec sched c1 with
      | error e => exact id
      | ok c' =>
        intro H
        refine ⟨H.1, H.2.1.trans hl, fun u p hp => ?_⟩
        have := H.2.2 u p hp
        by_cases hu : u = t
        · subst hu
          rw [if_pos rfl] at this
          rw [List.count_cons_self]
          rwa [show B u - (sched.count u + 1) = B u - 1 - sched.count u by omega]
        · rw [if_neg hu] at this
          rwa [List.count_cons_of_ne (fun h => hu h.symm)]
    have upd {p q : Prog α} (hp : c.thr[t]? = some p) (m : DRBG) (hm : m.WF) (hq : Safe (Q t) (B t - 1) q) :
        match Threads.exec sched ⟨m, c.thr.set t q⟩ with
        | .error e => e = .signedOverflow
        | .ok c' => c'.mem.WF ∧ c'.thr.length = c.thr.length ∧
            ∀ u p, c'.thr[u]? = some p → Safe (Q u) (B u - (t :: sched).count u) p := by
      refine fin ⟨m, c.thr.set t q⟩ hm (List.length_set ..) fun u r hr => ?_
      dsimp only at hr
      by_cases hu : u = t
      · subst hu
        rw [if_pos rfl]
        rw [List.getElem?_set_self (List.getElem?_eq_some_iff.1 hp).1] at hr
        cases hr; exact hq
      · rw [if_neg hu]
        rw [List.getElem?_set_ne (fun h => hu h.symm)] at hr
        exact h u r hr
    have idle (hp : ∀ p, c.thr[t]? = some p → ∃ a, p = .ret a) :
        match Threads.exec sched c with
        | .error e => e = .signedOverflow
        | .ok c' => c'.mem.WF ∧ c'.thr.length = c.thr.length ∧
            ∀ u p, c'.thr[u]? = some p → Safe (Q u) (B u - (t :: sched).count u) p := by
      refine fin c hw rfl fun u p hu => ?_
      split
      · rename_i e
        subst e
        obtain ⟨a, ha⟩ := hp p hu
        subst ha
        have := h u _ hu
        exact .ret (by cases hB : B u <;> rw [hB] at this <;> exact this)
      · exact h u p hu
    unfold Threads.step
    cases hp : c.thr[t]? with
    | none => exact idle (by rw [hp]; intro p h; cases h)
    | some p =>
      have hs := h t p hp
      cases p with
      | ret a => exact idle (by rw [hp]; intro p h; cases h; exact ⟨a, rfl⟩)
      | fail e =>
        show e = .signedOverflow
        revert hs
        cases B t <;> exact id
      | ld i k =>
        cases hB : B t with
        | zero => rw [hB] at hs; exact hs.elim
        | succ b =>
          rw [hB] at hs
          obtain ⟨v, hv⟩ := peek_total hw hs.1
          simp only [hv, ok_bind, pure_eq_ok]
          exact upd hp _ hw (by rw [hB]; exact hs.2 v)
      | st i v k =>
        cases hB : B t with
        | zero => rw [hB] at hs; exact hs.elim
        | succ b =>
          rw [hB] at hs
          obtain ⟨m, hm, hw'⟩ := poke_total hw hs.1 v
          simp only [hm, ok_bind, pure_eq_ok]
          exact upd hp m hw' (by rw [hB]; exact hs.2)
      | ldc k =>
        cases hB : B t with
        | zero => rw [hB] at hs; exact hs.elim
        | succ b =>
          rw [hB] at hs
          exact upd hp _ hw (by rw [hB]; exact hs _)
      | stc v k =>
        cases hB : B t with
        | zero => rw [hB] at hs; exact hs.elim
        | succ b =>
          rw [hB] at hs
          exact upd hp _ hw (by rw [hB]; exact hs)

end Saber.Conc

import Verif.Proof.Expander
/-!
# Properties of the random number generator and of the seed expander: C31 to C34

The block cipher `E` is arbitrary: any function that returns 16-byte blocks.
-/
namespace Saber.Props
open Spec Spec.Drbg

/-- The state of the specification that a context represents. -/
def stateOf (ctx : DRBG) : State := ⟨ctx.Key, ofBE ctx.V⟩

/-- A cipher with 16-byte blocks. -/
def IsCipher (E : List Byte → List Byte → List Byte) : Prop := ∀ k b, (E k b).length = 16

/-- C31: initialisation is CTR_DRBG_Instantiate and sets the reseed counter to 1. -/
theorem C31_init {E : Cipher} (hE : IsCipher E) (entropy : List Byte) (he : entropy.length = 48) (pers : Option (List Byte))
    (hp : ∀ d, pers = some d → d.length = 48) (ctx : DRBG) (hk : ctx.Key.length = 32) (hv : ctx.V.length = 16) :
    ∃ ctx', randombytes_init E entropy pers ctx = .ok ctx' ∧ ctx'.Key.length = 32 ∧ ctx'.V.length = 16 ∧ ctx'.reseed_counter = 1 ∧
      stateOf ctx' = instantiate E entropy (pers.getD (List.replicate 48 0)) := by
  obtain ⟨ctx', h1, ⟨h2, h3⟩, h4, h5⟩ := randombytes_init_ok hE entropy (by omega) pers hp ctx ⟨hk, hv⟩
  rw [List.take_of_length_le (by omega)] at h5
  exact ⟨ctx', h1, h2, h3, h4, h5⟩

/-- C31: a request writes the first `n` bytes of the key stream, nothing else, and updates the state; the new counter block is
the big-endian representation of the counter of the specification. -/
theorem C31_randombytes {E : Cipher} (hE : IsCipher E) (x : List Byte) (off n : Nat) (ctx : DRBG)
    (hk : ctx.Key.length = 32) (hv : ctx.V.length = 16) (hr0 : 0 ≤ ctx.reseed_counter) (hr : ctx.reseed_counter < 2147483647)
    (hn : n < 2147483648) (hx : off + n ≤ x.length) :
    ∃ x' ctx', randombytes E x off n ctx = .ok (x', ctx') ∧ x'.length = x.length ∧
      (x'.drop off).take n = (generate E (stateOf ctx) n).1 ∧ x'.take off = x.take off ∧ x'.drop (off + n) = x.drop (off + n) ∧
      ctx'.Key.length = 32 ∧ ctx'.V.length = 16 ∧
      stateOf ctx' = (generate E (stateOf ctx) n).2 ∧ ctx'.reseed_counter = ctx.reseed_counter + 1 := by
  have e := randombytes_ok hE x off n ctx ⟨hk, hv⟩ ⟨by omega, hr⟩ hn hx
  have hl := length_drbgDraw hE n ctx
  have h1 : (drbgDraw E n ctx).1 = (generate E (stateOf ctx) n).1 := rfl
  rw [← h1]
  generalize (drbgDraw E n ctx).1 = D at *
  subst hl
  exact ⟨_, _, e, length_writeAt _ _ _ (by omega), writeAt_read _ _ _ (by omega), writeAt_take _ _ _ (by omega),
    writeAt_drop _ _ _ (by omega), (drbgDraw_WF hE _ ctx).1, (drbgDraw_WF hE _ ctx).2, drbgDraw_abs hE _ ctx, rfl⟩

/-- The counter block of the context is determined by the state. -/
theorem C31_counter (ctx : DRBG) (hv : ctx.V.length = 16) : ctx.V = toBE 16 (stateOf ctx).v := (toBE_ofBE16 _ hv).symm

/-- C31: the counter wraps at `2^128`. -/
theorem C31_wrap (E : Cipher) (k : List Byte) : stream E ⟨k, 2 ^ 128 - 1⟩ 1 = E k (List.replicate 16 0) := by
  unfold stream
  rw [List.range_one, List.flatMap_singleton]
  exact congrArg (E k) (show toBE 16 (2 ^ 128 - 1 + 0 + 1) = List.replicate 16 0 by decide +kernel)

/-- A program that calls `randombytes` for `ns[0]`, `ns[1]`, ... bytes, each time into a fresh array. -/
def drbgRun (E : Cipher) (ctx : DRBG) : List Nat → CM (List (List Byte) × DRBG)
  | [] => .ok ([], ctx)
  | n :: ns => do
    let (x, ctx) ← randombytes E (List.replicate n 0) 0 n ctx
    let (outs, ctx) ← drbgRun E ctx ns
    pure (x :: outs, ctx)

theorem drbgRun_ok {E : Cipher} (hE : IsCipher E) (ns : List Nat) : ∀ (ctx : DRBG), ctx.Key.length = 32 → ctx.V.length = 16 →
    0 ≤ ctx.reseed_counter → ctx.reseed_counter + ns.length ≤ 2147483647 → (∀ n ∈ ns, n < 2147483648) →
    ∃ ctx', drbgRun E ctx ns = .ok ((run E (stateOf ctx) ns).1, ctx') ∧ ctx'.Key.length = 32 ∧ ctx'.V.length = 16 ∧
      stateOf ctx' = (run E (stateOf ctx) ns).2 ∧ ctx'.reseed_counter = ctx.reseed_counter + ns.length := by
  induction ns with
  | nil => intro ctx hk hv _ _ _; exact ⟨ctx, rfl, hk, hv, rfl, by simp⟩
  | cons n ns ih =>
    intro ctx hk hv h0 hr hn
    rw [List.length_cons, Nat.cast_add, Nat.cast_one] at hr
    obtain ⟨x, ctx1, h1, hl, hx, _, _, hk1, hv1, hs1, hc1⟩ := C31_randombytes hE (List.replicate n 0) 0 n ctx hk hv h0 (by omega)
      (hn n (by simp)) (by simp)
    obtain ⟨ctx2, h2, hk2, hv2, hs2, hc2⟩ := ih ctx1 hk1 hv1 (by omega) (by omega) (fun m hm => hn m (by simp [hm]))
    rw [List.length_replicate] at hl
    rw [List.drop_zero, List.take_of_length_le (by omega)] at hx
    refine ⟨ctx2, ?_, hk2, hv2, ?_, ?_⟩
    · unfold drbgRun
      rw [h1, ok_bind]
      dsimp only
      rw [h2, ok_bind, hs1, hx]
      rfl
    · rw [hs2, hs1]; rfl
    · rw [hc2, hc1, List.length_cons]; push_cast; omega

/-- C32: a history of at most `2^31 - 2` requests after initialisation has no undefined behaviour and gives the outputs of the
specification. -/
theorem C32_history {E : Cipher} (hE : IsCipher E) (entropy : List Byte) (he : entropy.length = 48) (pers : Option (List Byte))
    (hp : ∀ d, pers = some d → d.length = 48) (ctx : DRBG) (hk : ctx.Key.length = 32) (hv : ctx.V.length = 16)
    (ns : List Nat) (hlen : ns.length ≤ 2 ^ 31 - 2) (hn : ∀ n ∈ ns, n < 2 ^ 31) :
    ∃ ctx0 ctx', randombytes_init E entropy pers ctx = .ok ctx0 ∧
      drbgRun E ctx0 ns = .ok ((run E (instantiate E entropy (pers.getD (List.replicate 48 0))) ns).1, ctx') ∧
      ctx'.reseed_counter = 1 + ns.length := by
  obtain ⟨ctx0, h1, hk0, hv0, hc0, hs0⟩ := C31_init hE entropy he pers hp ctx hk hv
  obtain ⟨ctx', h2, _, _, _, hc⟩ := drbgRun_ok hE ns ctx0 hk0 hv0 (by omega) (by omega) hn
  rw [hs0] at h2
  exact ⟨ctx0, ctx', h1, h2, by rw [hc, hc0]⟩

theorem drbgRun_append (E : Cipher) (ms ns : List Nat) : ∀ ctx, drbgRun E ctx (ms ++ ns) = (do
    let (o1, ctx) ← drbgRun E ctx ms
    let (o2, ctx) ← drbgRun E ctx ns
    pure (o1 ++ o2, ctx)) := by
  induction ms with
  | nil =>
    intro ctx
    simp only [List.nil_append, drbgRun, ok_bind]
    cases drbgRun E ctx ns <;> rfl
  | cons m ms ih =>
    intro ctx
    simp only [List.cons_append, drbgRun]
    cases randombytes E (List.replicate m 0) 0 m ctx with
    | error e => rfl
    | ok r =>
      simp only [ok_bind]
      rw [ih]
      cases drbgRun E r.2 ms with
      | error e => rfl
      | ok r1 =>
        simp only [ok_bind]
        show _ = (do
          let x ← drbgRun E r1.2 ns
          pure (r.1 :: r1.1 ++ x.1, x.2))
        cases drbgRun E r1.2 ns <;> rfl

/-- C32: every longer history overflows the signed reseed counter, in the call with number `2^31 - 1`, whatever the lengths. -/
theorem C32_overflow {E : Cipher} (hE : IsCipher E) (entropy : List Byte) (he : entropy.length = 48) (pers : Option (List Byte))
    (hp : ∀ d, pers = some d → d.length = 48) (ctx : DRBG) (hk : ctx.Key.length = 32) (hv : ctx.V.length = 16)
    (ns : List Nat) (hlen : 2 ^ 31 - 1 ≤ ns.length) (hn : ∀ n ∈ ns, n < 2 ^ 31) :
    ∃ ctx0, randombytes_init E entropy pers ctx = .ok ctx0 ∧ (∃ r, drbgRun E ctx0 (ns.take (2 ^ 31 - 2)) = .ok r) ∧
      drbgRun E ctx0 ns = .error .signedOverflow := by
  obtain ⟨ctx0, h1, hk0, hv0, hc0, hs0⟩ := C31_init hE entropy he pers hp ctx hk hv
  obtain ⟨ctx', h2, hk2, hv2, _, hc⟩ := drbgRun_ok hE (ns.take (2 ^ 31 - 2)) ctx0 hk0 hv0 (by omega)
    (by rw [List.length_take]; omega) (fun n h => hn n (List.mem_of_mem_take h))
  refine ⟨ctx0, h1, ⟨_, h2⟩, ?_⟩
  conv_lhs => rw [← List.take_append_drop (2 ^ 31 - 2) ns]
  rw [drbgRun_append, h2, ok_bind]
  dsimp only
  have hcc : ctx'.reseed_counter = 2147483647 := by rw [hc, hc0, List.length_take]; omega
  cases hd : ns.drop (2 ^ 31 - 2) with
  | nil => have := congrArg List.length hd; rw [List.length_drop, List.length_nil] at this; omega
  | cons n rest =>
    have hm : n ∈ ns := List.mem_of_mem_drop (by rw [hd]; simp)
    unfold drbgRun
    rw [randombytes_counter_overflow hE _ _ _ ctx' ⟨hk2, hv2⟩ hcc (hn n hm) (by simp)]
    rfl

/-- C32: a single request of `2^31` bytes or more overflows the `int` index. -/
theorem C32_long_request {E : Cipher} (hE : IsCipher E) (x : List Byte) (off n : Nat) (ctx : DRBG) (hk : ctx.Key.length = 32)
    (hv : ctx.V.length = 16) (hn : 2 ^ 31 ≤ n) (hx : off + n ≤ x.length) : randombytes E x off n ctx = .error .signedOverflow :=
  randombytes_overflow hE x off n ctx ⟨hk, hv⟩ hn hx

/-- C33: initialisation rejects a budget of `2^32` or more and leaves the context alone. -/
theorem C33_init_reject (ctx : AESXOF) (seed div : List Byte) (maxlen : Nat) (h : 2 ^ 32 ≤ maxlen) :
    seedexpander_init ctx seed div maxlen = .ok (-1, ctx) := by
  unfold seedexpander_init
  rw [if_pos (by omega)]
  rfl

/-- C33: a request that is not smaller than the remaining budget is rejected and changes nothing. -/
theorem C33_reject (E : Cipher) (ctx : AESXOF) (x : List Byte) (n : Nat) (h : ctx.length_remaining ≤ n) :
    seedexpander E ctx (some x) n = .ok (-3, ctx, some x) := seedexpander_reject E ctx x n h

/-- C33: a null pointer is rejected. -/
theorem C33_null (E : Cipher) (ctx : AESXOF) (n : Nat) : seedexpander E ctx none n = .ok (-2, ctx, none) := rfl

/-- C33: over any history of requests to a freshly initialised expander, no undefined behaviour occurs, exactly the requests smaller
than the remaining budget are served, the number of delivered bytes stays below the budget, and the 32-bit block counter counts the
blocks without wrapping.  C34: the concatenation of the outputs is a prefix of one fixed key stream. -/
theorem C33_C34_history {E : Cipher} (hE : IsCipher E) (ctx : AESXOF) (hb : ctx.buffer.length = 16) (hk : ctx.key.length = 32)
    (hc : ctx.ctr.length = 16) (seed div : List Byte) (hs : seed.length = 32) (hd : div.length = 8) (maxlen : Nat) (hm : maxlen < 2 ^ 32)
    (ns : List Nat) :
    ∃ ctx0 outs ctx', seedexpander_init ctx seed div maxlen = .ok (0, ctx0) ∧ expanderRun E ctx0 ns = .ok (outs, ctx') ∧
      outs.map List.length = accepted maxlen ns ∧
      outs.flatten = expanderStream E seed div maxlen (accepted maxlen ns).sum ∧
      (accepted maxlen ns).sum ≤ maxlen - 1 ∧
      ctx'.length_remaining = maxlen - (accepted maxlen ns).sum ∧
      ∃ c, ctx'.ctr = div ++ toBE 4 maxlen ++ toBE 4 c ∧ 16 * c < maxlen + 16 ∧ c < 2 ^ 32 := by
  obtain ⟨ctx0, h0, inv0, hr0⟩ := seedexpander_init_ok E ctx ⟨hb, hk, hc⟩ seed div hs hd maxlen hm
  obtain ⟨outs, ctx', c, h1, h2, h3, h4, inv⟩ := expanderRun_ok hE seed div hd maxlen ns ctx0 0 0 inv0
  rw [hr0] at h2 h3 h4 inv
  have hsum : (accepted maxlen ns).sum ≤ maxlen - 1 ∧ ((accepted maxlen ns).sum < maxlen ∨ maxlen = 0) := by
    rcases Nat.eq_zero_or_pos maxlen with h | h
    · subst h; rw [accepted_zero]; simp
    · have := accepted_sum ns maxlen h; omega
  have hsv := inv.served
  have hp := inv.pos
  have hc0 : 16 * c < maxlen + 16 := by
    rcases hsum.2 with h | h
    · omega
    · subst h
      rw [accepted_zero] at hsv inv
      -- nothing was ever served: the context is the initial one
      have : expanderRun E ctx0 ns = .ok ([], ctx0) := by
        clear h1 h2 h3 h4 inv hsv hsum
        induction ns with
        | nil => rfl
        | cons n ns ih =>
          unfold expanderRun
          rw [seedexpander_reject E ctx0 _ _ (by omega), ok_bind]
          dsimp only
          rw [ih, ok_bind]
          rfl
      rw [this] at h1
      obtain ⟨_, rfl⟩ := Prod.mk.inj (Except.ok.inj h1)
      have e1 := inv0.served
      simp only [List.sum_nil] at hsv
      omega
  exact ⟨ctx0, outs, ctx', h0, h1, h2, by rw [h3, expanderStream_eq hE]; simp, hsum.1, h4, c, inv.ctr, hc0, by omega⟩

/-- C34: two histories that deliver the same number of bytes deliver the same bytes. -/
theorem C34_chunking {E : Cipher} (hE : IsCipher E) (ctx : AESXOF) (hb : ctx.buffer.length = 16) (hk : ctx.key.length = 32)
    (hc : ctx.ctr.length = 16) (seed div : List Byte) (hs : seed.length = 32) (hd : div.length = 8) (maxlen : Nat)
    (ms ns : List Nat) (hms : ms.sum < maxlen) (hsum : ms.sum = ns.sum) (hm : maxlen < 2 ^ 32) :
    ∃ ctx0 o1 o2 c1 c2, seedexpander_init ctx seed div maxlen = .ok (0, ctx0) ∧ expanderRun E ctx0 ms = .ok (o1, c1) ∧
      expanderRun E ctx0 ns = .ok (o2, c2) ∧ o1.map List.length = ms ∧ o2.map List.length = ns ∧ o1.flatten = o2.flatten := by
  have hacc : ∀ (l : List Nat) (r : Nat), l.sum < r → accepted r l = l := by
    intro l
    induction l with
    | nil => intro r _; rfl
    | cons n l ih =>
      intro r h
      rw [List.sum_cons] at h
      unfold accepted
      rw [if_pos (by omega), ih _ (by omega)]
  obtain ⟨ctx0, o1, c1, h0, h1, l1, f1, _⟩ := C33_C34_history hE ctx hb hk hc seed div hs hd maxlen hm ms
  obtain ⟨ctx0', o2, c2, h0', h2, l2, f2, _⟩ := C33_C34_history hE ctx hb hk hc seed div hs hd maxlen hm ns
  rw [h0] at h0'
  obtain ⟨_, rfl⟩ := Prod.mk.inj (Except.ok.inj h0')
  rw [hacc ms maxlen hms] at l1 f1
  rw [hacc ns maxlen (by omega)] at l2 f2
  exact ⟨ctx0, o1, o2, c1, c2, h0, h1, h2, l1, l2, by rw [f1, f2, hsum]⟩

/-! ### The hypotheses are met -/

/-- A cipher for the examples. -/
def toyCipher : Cipher := fun k b => (List.range 16).map fun i => k.getD i 0 ^^^ b.getD i 0

theorem toyCipher_ok : IsCipher toyCipher := by intro k b; simp [toyCipher]

/-- An instance of C32: three requests after initialisation. -/
example : ∃ ctx0 r, randombytes_init toyCipher (List.replicate 48 7) none ⟨List.replicate 32 0, List.replicate 16 0, 0⟩ = .ok ctx0 ∧
    drbgRun toyCipher ctx0 [32, 0, 33] = .ok r ∧ r.2.reseed_counter = 4 := by
  obtain ⟨ctx0, ctx', h1, h2, h3⟩ := C32_history toyCipher_ok (List.replicate 48 7) (by simp) none (by simp)
    ⟨List.replicate 32 0, List.replicate 16 0, 0⟩ (by simp) (by simp) [32, 0, 33] (by simp) (by simp)
  exact ⟨ctx0, _, h1, h2, by rw [h3]; rfl⟩

/-- An instance of C33: with a budget of 40 bytes, of the requests 17, 30, 22, 1 the first and the third are served; the last byte
of the budget is never delivered. -/
example : accepted 40 [17, 30, 22, 1] = [17, 22] := by decide

end Saber.Props

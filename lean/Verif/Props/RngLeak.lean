import Verif.Proof.Leak.Rng
import Verif.Props.Rng
/-!
# C73: what an observer of accesses and branches learns from the random number generator

The functions of `Model/Leak/Rng.lean` record array indices and branch directions.  The increment of the counter of the generator stops
at the first byte that does not wrap; so the events show how many bytes wrap.  They show this and nothing else.  The block cipher is
one event (its own accesses are OpenSSL's).
-/
namespace Saber.Props
open Spec Spec.Drbg Spec.Carry

/-- C73: the functions with events compute what the functions of C31 to C34 compute. -/
theorem C73_same_functions (E : Cipher) :
    (∀ e p ctx, (Leak.randombytes_init E e p ctx).out = randombytes_init E e p ctx) ∧
    (∀ x off n ctx, (Leak.randombytes E x off n ctx).out = randombytes E x off n ctx) ∧
    (∀ ctx x n, (Leak.seedexpander E ctx x n).out = seedexpander E ctx x n) :=
  ⟨Leak.E_randombytes_init E, Leak.E_randombytes E, Leak.E_seedexpander E⟩

/-- C73: initialisation shows nothing about the entropy, the contents of the personalisation string, the old state or the cipher. -/
theorem C73_init_constant_time {E E' : Cipher} (hE : IsCipher E) (hE' : IsCipher E') (e e' : List Byte) (he : e.length = 48) (he' : e'.length = 48)
    (p p' : Option (List Byte)) (hp : ∀ d, p = some d → d.length = 48) (hp' : ∀ d, p' = some d → d.length = 48) (hpp : p.isSome = p'.isSome)
    (ctx ctx' : DRBG) (hk : ctx.Key.length = 32) (hv : ctx.V.length = 16) (hk' : ctx'.Key.length = 32) (hv' : ctx'.V.length = 16) :
    (Leak.randombytes_init E e p ctx).trace = (Leak.randombytes_init E' e' p' ctx').trace := by
  obtain ⟨c, h, _⟩ := C31_init hE e he p hp ctx hk hv
  obtain ⟨c', h', _⟩ := C31_init hE' e' he' p' hp' ctx' hk' hv'
  rw [← (C73_same_functions E).1] at h
  rw [← (C73_same_functions E').1] at h'
  exact ((Leak.CT_randombytes_init E E' e e' p p' hpp ctx ctx' hv hv').same _ _ h h').1

/-- C73: two requests for `n` bytes cause the same events if and only if, at each of the `⌈n/16⌉ + 3` increments, the same number of
bytes of the two counters wraps.  The keys, the delivered bytes, the contents of the arrays and the cipher have no influence. -/
theorem C73_randombytes_exact {E E' : Cipher} (hE : IsCipher E) (hE' : IsCipher E') (x x' : List Byte) (off n : Nat) (ctx ctx' : DRBG)
    (hk : ctx.Key.length = 32) (hv : ctx.V.length = 16) (hr0 : 0 ≤ ctx.reseed_counter) (hr : ctx.reseed_counter < 2147483647)
    (hk' : ctx'.Key.length = 32) (hv' : ctx'.V.length = 16) (hr0' : 0 ≤ ctx'.reseed_counter) (hr' : ctx'.reseed_counter < 2147483647)
    (hn : n < 2147483648) (hx : off + n ≤ x.length) (hx' : off + n ≤ x'.length) :
    (Leak.randombytes E x off n ctx).trace = (Leak.randombytes E' x' off n ctx').trace ↔
      ∀ j < (n + 15) / 16 + 3, wraps 16 ((stateOf ctx).v + j) = wraps 16 ((stateOf ctx').v + j) := by
  obtain ⟨y, c, h, _⟩ := C31_randombytes hE x off n ctx hk hv hr0 hr hn hx
  obtain ⟨y', c', h', _⟩ := C31_randombytes hE' x' off n ctx' hk' hv' hr0' hr' hn hx'
  rw [← (C73_same_functions E).2.1] at h
  rw [← (C73_same_functions E').2.1] at h'
  have := ((Leak.D_randombytes E E' x x' off n ctx ctx' hv hv').same _ _ h h').1 [] []
  rw [List.append_nil, List.append_nil] at this
  rw [this]
  exact ⟨fun h => h.1, fun h => ⟨h, rfl⟩⟩

/-- C73: with equal counters the events are equal, whatever the keys. -/
theorem C73_key_not_shown {E E' : Cipher} (hE : IsCipher E) (hE' : IsCipher E') (x x' : List Byte) (off n : Nat) (ctx ctx' : DRBG)
    (hk : ctx.Key.length = 32) (hv : ctx.V.length = 16) (hr0 : 0 ≤ ctx.reseed_counter) (hr : ctx.reseed_counter < 2147483647)
    (hk' : ctx'.Key.length = 32) (hr0' : 0 ≤ ctx'.reseed_counter) (hr' : ctx'.reseed_counter < 2147483647)
    (hn : n < 2147483648) (hx : off + n ≤ x.length) (hx' : off + n ≤ x'.length) (hV : ctx.V = ctx'.V) :
    (Leak.randombytes E x off n ctx).trace = (Leak.randombytes E' x' off n ctx').trace := by
  rw [C73_randombytes_exact hE hE' x x' off n ctx ctx' hk hv hr0 hr hk' (hV ▸ hv) hr0' hr' hn hx hx']
  intro j _
  unfold stateOf
  rw [hV]

/-- No byte wraps unless the lowest byte does. -/
theorem wraps_eq_zero (x : Nat) (h : x % 256 ≠ 255) : wraps 16 x = 0 := by
  rw [Leak.wraps_succ, if_neg h]

/-- C73: requests during which the lowest byte of neither counter wraps cause the same events. -/
theorem C73_no_wrap_no_leak {E E' : Cipher} (hE : IsCipher E) (hE' : IsCipher E') (x x' : List Byte) (off n : Nat) (ctx ctx' : DRBG)
    (hk : ctx.Key.length = 32) (hv : ctx.V.length = 16) (hr0 : 0 ≤ ctx.reseed_counter) (hr : ctx.reseed_counter < 2147483647)
    (hk' : ctx'.Key.length = 32) (hv' : ctx'.V.length = 16) (hr0' : 0 ≤ ctx'.reseed_counter) (hr' : ctx'.reseed_counter < 2147483647)
    (hn : n < 2147483648) (hx : off + n ≤ x.length) (hx' : off + n ≤ x'.length)
    (hw : (stateOf ctx).v % 256 + (n + 15) / 16 + 3 ≤ 255) (hw' : (stateOf ctx').v % 256 + (n + 15) / 16 + 3 ≤ 255) :
    (Leak.randombytes E x off n ctx).trace = (Leak.randombytes E' x' off n ctx').trace := by
  rw [C73_randombytes_exact hE hE' x x' off n ctx ctx' hk hv hr0 hr hk' hv' hr0' hr' hn hx hx']
  intro j hj
  rw [wraps_eq_zero _ (by omega), wraps_eq_zero _ (by omega)]

/-- C73: the counter is secret, yet every request distinguishes a counter whose lowest byte is 255 from one whose lowest byte is not:
the generator is not constant-time. -/
theorem C73_not_constant_time {E E' : Cipher} (hE : IsCipher E) (hE' : IsCipher E') (x x' : List Byte) (off n : Nat) (ctx ctx' : DRBG)
    (hk : ctx.Key.length = 32) (hv : ctx.V.length = 16) (hr0 : 0 ≤ ctx.reseed_counter) (hr : ctx.reseed_counter < 2147483647)
    (hk' : ctx'.Key.length = 32) (hv' : ctx'.V.length = 16) (hr0' : 0 ≤ ctx'.reseed_counter) (hr' : ctx'.reseed_counter < 2147483647)
    (hn : n < 2147483648) (hx : off + n ≤ x.length) (hx' : off + n ≤ x'.length)
    (hw : (stateOf ctx).v % 256 = 255) (hw' : (stateOf ctx').v % 256 ≠ 255) :
    (Leak.randombytes E x off n ctx).trace ≠ (Leak.randombytes E' x' off n ctx').trace := by
  rw [Ne, C73_randombytes_exact hE hE' x x' off n ctx ctx' hk hv hr0 hr hk' hv' hr0' hr' hn hx hx']
  intro h
  have := h 0 (by omega)
  rw [Nat.add_zero, Nat.add_zero, wraps_eq_zero _ hw', Leak.wraps_succ, if_pos hw] at this
  omega

/-- A program that sends requests to a seed expander (`expanderRun` of C33) with events. -/
def leakExpanderRun (E : Cipher) (ctx : AESXOF) : List Nat → Leak.LM (List (List Byte) × AESXOF)
  | [] => pure ([], ctx)
  | n :: ns => do
    let (rc, ctx, x) ← Leak.seedexpander E ctx (some (List.replicate n 0)) n
    Leak.branch (decide (rc = 0))
    let (outs, ctx) ← leakExpanderRun E ctx ns
    pure (if rc = 0 then x.getD [] :: outs else outs, ctx)

theorem leakExpanderRun_same (E : Cipher) (ns : List Nat) : ∀ ctx, (leakExpanderRun E ctx ns).out = expanderRun E ctx ns := by
  induction ns with
  | nil => intro ctx; rfl
  | cons n ns ih =>
    intro ctx
    exact Leak.E.bind (Leak.E_seedexpander E ctx _ _) fun r => Leak.E.branch _ (Leak.E.bind (ih r.2.1) fun _ => Leak.E.pure _)

theorem leakExpanderRun_R2 (E E' : Cipher) (ns : List Nat) : ∀ ctx ctx', Leak.XofPublic ctx ctx' →
    Leak.CT (leakExpanderRun E ctx ns) (leakExpanderRun E' ctx' ns) := by
  induction ns with
  | nil => intro ctx ctx' _; exact Leak.CT.pure _ _
  | cons n ns ih =>
    intro ctx ctx' h
    refine Leak.R2.bind (Leak.R2_seedexpander E E' ctx ctx' h _ _ rfl n) ?_
    rintro ⟨rc, c, x⟩ ⟨rc', c', x'⟩ ⟨h1, h2⟩
    dsimp only at h1 h2 ⊢
    subst h1
    exact Leak.CT.bind (Leak.CT.branch _) fun _ _ => Leak.CT.bind (ih _ _ h2) fun _ _ => Leak.CT.pure _ _

/-- C73: a history of requests to a seed expander shows nothing about the seed and about the delivered bytes: for two seeds and the same
diversifier, budget and lengths, the events are the same. -/
theorem C73_seedexpander_constant_time {E E' : Cipher} (hE : IsCipher E) (hE' : IsCipher E') (ctx ctx' : AESXOF)
    (hb : ctx.buffer.length = 16) (hk : ctx.key.length = 32) (hc : ctx.ctr.length = 16)
    (hb' : ctx'.buffer.length = 16) (hk' : ctx'.key.length = 32) (hc' : ctx'.ctr.length = 16)
    (seed seed' div : List Byte) (hs : seed.length = 32) (hs' : seed'.length = 32) (hd : div.length = 8) (maxlen : Nat) (hm : maxlen < 2 ^ 32)
    (ns : List Nat) :
    ∃ c c', seedexpander_init ctx seed div maxlen = .ok (0, c) ∧ seedexpander_init ctx' seed' div maxlen = .ok (0, c') ∧
      (leakExpanderRun E c ns).out = expanderRun E c ns ∧
      (leakExpanderRun E c ns).trace = (leakExpanderRun E' c' ns).trace := by
  obtain ⟨c, o, f, h0, h1, _⟩ := C33_C34_history hE ctx hb hk hc seed div hs hd maxlen hm ns
  obtain ⟨c', o', f', h0', h1', _⟩ := C33_C34_history hE' ctx' hb' hk' hc' seed' div hs' hd maxlen hm ns
  obtain ⟨_, g0, inv0, gr0⟩ := seedexpander_init_ok E ctx ⟨hb, hk, hc⟩ seed div hs hd maxlen hm
  obtain ⟨_, g0', inv0', gr0'⟩ := seedexpander_init_ok E' ctx' ⟨hb', hk', hc'⟩ seed' div hs' hd maxlen hm
  rw [h0] at g0
  rw [h0'] at g0'
  obtain ⟨_, rfl⟩ := Prod.mk.inj (Except.ok.inj g0)
  obtain ⟨_, rfl⟩ := Prod.mk.inj (Except.ok.inj g0')
  refine ⟨c, c', h0, h0', leakExpanderRun_same E ns c, ?_⟩
  refine ((leakExpanderRun_R2 E E' ns c c' ⟨?_, ?_, ?_⟩).same _ _ ((leakExpanderRun_same E ns c).trans h1)
    ((leakExpanderRun_same E' ns c').trans h1')).1
  · have h1 := inv0.served; have p1 := inv0.pos; have p2 := inv0'.pos
    have h2 := inv0'.served
    omega
  · rw [gr0, gr0']
  · rw [inv0.ctr, inv0'.ctr]

/-! ### The hypotheses are met -/

/-- Two states of the generator with the same key. -/
def leakState (b : Byte) : DRBG := ⟨List.replicate 32 7, List.replicate 15 9 ++ [b], 1⟩

/-- An instance of the leak: a request for 32 bytes tells whether the counter ends in 255 or in 3. -/
example : (Leak.randombytes toyCipher (List.replicate 32 0) 0 32 (leakState 255)).trace ≠
    (Leak.randombytes toyCipher (List.replicate 32 0) 0 32 (leakState 3)).trace :=
  C73_not_constant_time toyCipher_ok toyCipher_ok _ _ 0 32 (leakState 255) (leakState 3) rfl rfl (by decide) (by decide) rfl rfl (by decide)
    (by decide) (by decide) (by simp) (by simp) (by decide) (by decide)

/-- It does not tell whether the counter ends in 200 or in 3. -/
example : (Leak.randombytes toyCipher (List.replicate 32 0) 0 32 (leakState 200)).trace =
    (Leak.randombytes toyCipher (List.replicate 32 0) 0 32 (leakState 3)).trace :=
  C73_no_wrap_no_leak toyCipher_ok toyCipher_ok _ _ 0 32 (leakState 200) (leakState 3) rfl rfl (by decide) (by decide) rfl rfl (by decide)
    (by decide) (by decide) (by simp) (by simp) (by decide) (by decide)

/-- The number of bytes that wrap: `0x01ffff + 1`. -/
example : wraps 16 0x01ffff = 2 := by decide

/-- An instance for the seed expander: two seeds, a budget of 40 bytes, four requests, two of which are refused. -/
example : ∃ c c', seedexpander_init ⟨List.replicate 16 0, 0, 0, List.replicate 32 0, List.replicate 16 0⟩ (List.replicate 32 1) (List.replicate 8 5) 40
      = .ok (0, c) ∧
    seedexpander_init ⟨List.replicate 16 0, 0, 0, List.replicate 32 0, List.replicate 16 0⟩ (List.replicate 32 2) (List.replicate 8 5) 40
      = .ok (0, c') ∧
    (leakExpanderRun toyCipher c [17, 30, 22, 1]).out = expanderRun toyCipher c [17, 30, 22, 1] ∧
    (leakExpanderRun toyCipher c [17, 30, 22, 1]).trace = (leakExpanderRun toyCipher c' [17, 30, 22, 1]).trace :=
  C73_seedexpander_constant_time toyCipher_ok toyCipher_ok _ _ rfl rfl rfl rfl rfl rfl _ _ _ rfl rfl rfl 40 (by decide) _

end Saber.Props

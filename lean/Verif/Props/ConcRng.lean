import Verif.Proof.Conc.Rng
import Verif.Proof.KatMain
import Verif.Props.Kem
import Verif.Props.Rng
/-!
# C88: the random number generator is not safe for threads

`randombytes` works on one global state without a lock.  `Model/Conc/Rng.lean` models the calls of several threads whose accesses to that
state are interleaved in any order.  There is an order in which any number of threads that ask for random bytes at the same time all get
the same bytes, and any number of threads that generate a key pair at the same time all get the same key pair.  No order makes a call
leave the arrays, fail to finish or write elsewhere.
-/
namespace Saber.Props
open Spec Spec.Drbg Conc

/-- Turns in which each of the threads `0 .. N` makes one access, `rounds` times over: a fair schedule. -/
def turns (N rounds : Nat) : List Nat := (List.replicate rounds (List.range (N + 1))).flatten

/-- Every thread gets the same number of turns. -/
theorem C88_fair (N rounds t : Nat) (ht : t ≤ N) : (turns N rounds).count t = rounds := by
  unfold turns
  rw [List.count_flatten, List.map_replicate, List.sum_replicate, List.count_eq_one_of_mem List.nodup_range (List.mem_range.2 (by omega))]
  simp

/-- C88: a thread that runs alone computes what the sequential model of `randombytes` computes, undefined behaviour included. -/
theorem C88_alone {E : Cipher} (hE : IsCipher E) (x : List Byte) (off n : Nat) (ctx : DRBG) (hk : ctx.Key.length = 32)
    (hv : ctx.V.length = 16) : (randombytesP E x off n).run ctx = randombytes E x off n ctx :=
  run_randombytesP hE x off n ctx ⟨hk, hv⟩

/-- C88: any number of threads that call `randombytes` at the same time can all get the same bytes: those that one call alone gets; the
generator ends in the state after one call. -/
theorem C88_same_bytes {E : Cipher} (hE : IsCipher E) (N : Nat) (x : List Byte) (off n : Nat) (ctx : DRBG) (hk : ctx.Key.length = 32)
    (hv : ctx.V.length = 16) (x' : List Byte) (ctx' : DRBG) (h : randombytes E x off n ctx = .ok (x', ctx')) :
    ∃ rounds, Threads.exec (turns N rounds) ⟨ctx, List.replicate (N + 1) (randombytesP E x off n)⟩ =
      .ok ⟨ctx', List.replicate (N + 1) (.ret x')⟩ :=
  lockstep N _ ctx (x', ctx') ((C88_alone hE x off n ctx hk hv).trans h)

theorem stringsRng_delivers (r : List Byte) (rs : List (List Byte)) (h : 32 ≤ r.length) :
    Delivers stringsRng 32 (r :: rs) (r.take 32) rs := by
  refine ⟨by simp [h], fun buf off hb => ?_⟩
  unfold stringsRng
  dsimp only [List.headD]
  rw [memcpy_ok _ _ _ _ _ (by omega) hb, ok_bind]
  rfl

/-- C88: a thread that generates a key pair alone computes what the sequential model of `crypto_kem_keypair` computes. -/
theorem C88_keypair_alone {E : Cipher} (hE : IsCipher E) (P : PSet) (ctx : DRBG) (hk : ctx.Key.length = 32) (hv : ctx.V.length = 16)
    (h0 : 0 ≤ ctx.reseed_counter) (hr : ctx.reseed_counter + 3 ≤ 2147483647) (pk sk : List Byte) (hpk : pk.length = P.PUBLICKEYBYTES)
    (hsk : sk.length = P.SECRETKEYBYTES) :
    ∃ pk' sk' ctx', crypto_kem_keypair P (randombytes E) pk sk ctx = .ok (0, pk', sk', ctx') ∧
      (keypairP P E pk sk).run ctx = .ok ((0, pk', sk'), ctx') := by
  have d1 := Delivers_drbg hE 32 (by omega) ctx ⟨hk, hv⟩ (by omega)
  have w1 := drbgDraw_WF hE 32 ctx
  have c1 : (drbgDraw E 32 ctx).2.reseed_counter = ctx.reseed_counter + 1 := rfl
  generalize (drbgDraw E 32 ctx).2 = ctx1 at *
  generalize (drbgDraw E 32 ctx).1 = r1 at *
  have d2 := Delivers_drbg hE 32 (by omega) ctx1 w1 (by omega)
  have w2 := drbgDraw_WF hE 32 ctx1
  have c2 : (drbgDraw E 32 ctx1).2.reseed_counter = ctx1.reseed_counter + 1 := rfl
  generalize (drbgDraw E 32 ctx1).2 = ctx2 at *
  generalize (drbgDraw E 32 ctx1).1 = r2 at *
  have d3 := Delivers_drbg hE 32 (by omega) ctx2 w2 (by omega)
  generalize (drbgDraw E 32 ctx2).2 = ctx3 at *
  generalize (drbgDraw E 32 ctx2).1 = z at *
  refine ⟨_, _, _, C01_keypair_spec P (randombytes E) ctx ctx1 ctx2 ctx3 r1 r2 z d1 d2 d3 pk sk hpk hsk, ?_⟩
  have s1 := stringsRng_delivers r1 [r2, z] (Nat.le_of_eq d1.1.symm)
  have s2 := stringsRng_delivers r2 [z] (Nat.le_of_eq d2.1.symm)
  have s3 := stringsRng_delivers z [] (Nat.le_of_eq d3.1.symm)
  rw [List.take_of_length_le (by rw [d1.1])] at s1
  rw [List.take_of_length_le (by rw [d2.1])] at s2
  rw [List.take_of_length_le (by rw [d3.1])] at s3
  have e := C01_keypair_spec P stringsRng [r1, r2, z] _ _ _ r1 r2 z s1 s2 s3 pk sk hpk hsk
  have full (m m' : DRBG) (tag : Nat) (r : List Byte) (hw : m.WF) (d : Delivers (randombytes E) 32 m r m') :
      (randombytesP E (uninit 8 tag 32) 0 32).run m = .ok (r, m') := by
    rw [C88_alone hE _ _ _ _ hw.1 hw.2, d.2 _ 0 (by simp), writeAt_full _ _ (by rw [d.1]; simp)]
  unfold keypairP
  rw [run_bind, show SEEDBYTES = 32 from rfl, full _ _ _ _ ⟨hk, hv⟩ d1, ok_bind, run_bind, show NOISE_SEEDBYTES = 32 from rfl]
  dsimp only
  rw [full _ _ _ _ w1 d2, ok_bind, run_bind, show KEYBYTES = 32 from rfl]
  dsimp only
  rw [full _ _ _ _ w2 d3, ok_bind, run_bind, run_lift, e]
  rfl

/-- C88: any number of threads that generate a key pair at the same time can all get the same key pair: the public and the secret key
that one call alone would give. -/
theorem C88_same_key_pair {E : Cipher} (hE : IsCipher E) (N : Nat) (P : PSet) (ctx : DRBG) (hk : ctx.Key.length = 32)
    (hv : ctx.V.length = 16) (h0 : 0 ≤ ctx.reseed_counter) (hr : ctx.reseed_counter + 3 ≤ 2147483647) (pk sk : List Byte)
    (hpk : pk.length = P.PUBLICKEYBYTES) (hsk : sk.length = P.SECRETKEYBYTES) :
    ∃ rounds pk' sk' ctx', crypto_kem_keypair P (randombytes E) pk sk ctx = .ok (0, pk', sk', ctx') ∧
      Threads.exec (turns N rounds) ⟨ctx, List.replicate (N + 1) (keypairP P E pk sk)⟩ =
        .ok ⟨ctx', List.replicate (N + 1) (.ret (0, pk', sk'))⟩ := by
  obtain ⟨pk', sk', ctx', h1, h2⟩ := C88_keypair_alone hE P ctx hk hv h0 hr pk sk hpk hsk
  obtain ⟨rounds, h⟩ := lockstep N _ ctx _ h2
  exact ⟨rounds, pk', sk', ctx', h1, h⟩

/-- C88: any number of threads that encapsulate for the same public key at the same time can all get the same ciphertext and the same
shared secret. -/
theorem C88_same_shared_secret {E : Cipher} (hE : IsCipher E) (N : Nat) (P : PSet) (ctx : DRBG) (hk : ctx.Key.length = 32)
    (hv : ctx.V.length = 16) (h0 : 0 ≤ ctx.reseed_counter) (hr : ctx.reseed_counter < 2147483647) (c k pk : List Byte)
    (hc : c.length = P.BYTES_CCA_DEC) (hk' : k.length = 32) (hpk : pk.length = P.PUBLICKEYBYTES) :
    ∃ rounds c' k' ctx', crypto_kem_enc P (randombytes E) c k pk ctx = .ok (0, c', k', ctx') ∧
      Threads.exec (turns N rounds) ⟨ctx, List.replicate (N + 1) (encP P E c k pk)⟩ =
        .ok ⟨ctx', List.replicate (N + 1) (.ret (0, c', k'))⟩ := by
  have d := Delivers_drbg hE 32 (by omega) ctx ⟨hk, hv⟩ (by omega)
  generalize (drbgDraw E 32 ctx).2 = ctx1 at *
  generalize (drbgDraw E 32 ctx).1 = m at *
  have e := C02_enc_spec P (randombytes E) ctx ctx1 m d c k pk hc hk' hpk
  have s := stringsRng_delivers (writeAt (uninit 8 61 64) 0 m) [] (by rw [length_writeAt _ _ _ (by rw [d.1]; simp)]; simp)
  have hm : (writeAt (uninit 8 61 64) 0 m).take 32 = m := by
    have := writeAt_read (uninit 8 61 64) m 0 (by simp)
    rwa [d.1, List.drop_zero] at this
  rw [hm] at s
  have e2 := C02_enc_spec P stringsRng _ _ m s c k pk hc hk' hpk
  have r : (encP P E c k pk).run ctx = .ok ((0, encapsC (params P) m pk, encapsK (params P) m pk), ctx1) := by
    unfold encP
    rw [run_bind, C88_alone hE _ _ _ _ hk hv, d.2 _ 0 (by simp), ok_bind, run_bind, run_lift, e2]
    rfl
  obtain ⟨rounds, h⟩ := lockstep N _ ctx _ r
  exact ⟨rounds, _, _, _, e, h⟩

/-- C88: for every schedule of any number of threads with requests of any lengths: no access is outside of the arrays (the only
undefined behaviour possible is the overflow of the reseed counter or of the position in a request of `2^31` bytes), a thread that has
had `accesses n` turns has finished, and a finished request has changed only the bytes it was asked to fill. -/
theorem C88_any_schedule {E : Cipher} (hE : IsCipher E) (ctx : DRBG) (hk : ctx.Key.length = 32) (hv : ctx.V.length = 16)
    (requests : List (List Byte × Nat × Nat)) (hx : ∀ x off n, (x, off, n) ∈ requests → off + n ≤ x.length) (sched : List Nat) :
    match Threads.exec sched ⟨ctx, requests.map fun q => randombytesP E q.1 q.2.1 q.2.2⟩ with
    | .error e => e = .signedOverflow
    | .ok c => c.mem.Key.length = 32 ∧ c.mem.V.length = 16 ∧ c.thr.length = requests.length ∧
        ∀ t x off n, requests[t]? = some (x, off, n) →
          (∀ x', c.thr[t]? = some (.ret x') → x'.length = x.length ∧ x'.take off = x.take off ∧ x'.drop (off + n) = x.drop (off + n)) ∧
          (81 * ((n + 15) / 16) + 293 ≤ sched.count t → (∃ x', c.thr[t]? = some (.ret x')) ∨ c.thr[t]? = some (.fail .signedOverflow)) := by
  have key := exec_safe (fun t x' => ∀ x off n, requests[t]? = some (x, off, n) → Frame x off n x') sched
    ⟨ctx, requests.map fun q => randombytesP E q.1 q.2.1 q.2.2⟩ (fun t => match requests[t]? with | some q => accesses q.2.2 | none => 0)
    ⟨hk, hv⟩ (by
      intro t p hp
      dsimp only at hp
      rw [List.getElem?_map] at hp
      cases hq : requests[t]? with
      | none => rw [hq] at hp; cases hp
      | some q =>
        rw [hq] at hp
        cases hp
        refine Safe.mono (fun x' h x off n e => ?_) _ (Nat.le_refl _) (safe_randombytesP hE q.1 q.2.1 q.2.2
          (hx _ _ _ (List.mem_of_getElem? hq)))
        cases e; exact h)
  revert key
  cases Threads.exec sched ⟨ctx, requests.map fun q => randombytesP E q.1 q.2.1 q.2.2⟩ with
  | error e => exact id
  | ok c =>
    intro H
    have hl : c.thr.length = requests.length := by rw [H.2.1]; simp
    refine ⟨H.1.1, H.1.2, hl, fun t x off n hq => ⟨fun x' hx' => ?_, fun hcount => ?_⟩⟩
    · have := H.2.2 t _ hx'
      have : ∀ x off n, requests[t]? = some (x, off, n) → Frame x off n x' := by
        revert this
        generalize _ - List.count t sched = b
        cases b <;> exact id
      exact this x off n hq
    · have ht : t < c.thr.length := by rw [hl]; exact (List.getElem?_eq_some_iff.1 hq).1
      have := H.2.2 t _ (List.getElem?_eq_getElem ht)
      simp only [hq] at this
      rw [show accesses n - sched.count t = 0 by unfold accesses; omega] at this
      rw [List.getElem?_eq_getElem ht]
      revert this
      cases c.thr[t] with
      | ret x' => intro _; exact .inl ⟨x', rfl⟩
      | fail e => intro h; exact .inr (by rw [show e = .signedOverflow from h])
      | ld i k => exact False.elim
      | st i v k => exact False.elim
      | ldc k => exact False.elim
      | stc v k => exact False.elim

/-- The hypotheses are met: a state of the generator, and two threads that share it. -/
example : (randombytes toyCipher [1, 2, 3] 1 2 ⟨List.replicate 32 5, List.replicate 16 255, 1⟩).toOption.isSome ∧
    ∃ rounds c, Threads.exec (turns 1 rounds) ⟨⟨List.replicate 32 5, List.replicate 16 255, 1⟩,
      List.replicate 2 (randombytesP toyCipher [1, 2, 3] 1 2)⟩ = .ok c ∧ c.thr = [.ret [1, 5, 5], .ret [1, 5, 5]] := by
  obtain ⟨x', c', h, hl, hd, ht, _⟩ := C31_randombytes toyCipher_ok [1, 2, 3] 1 2 ⟨List.replicate 32 5, List.replicate 16 255, 1⟩ (by simp)
    (by simp) (by simp) (by simp) (by omega) (by simp)
  obtain ⟨rounds, hr⟩ := C88_same_bytes toyCipher_ok 1 [1, 2, 3] 1 2 _ (by simp) (by simp) x' c' h
  have e : x' = [1, 5, 5] := by
    rw [← List.take_append_drop 1 x', ht, ← List.take_of_length_le (l := x'.drop 1) (i := 2) (by rw [List.length_drop, hl]; simp), hd]
    decide +kernel
  subst e
  exact ⟨by rw [h]; rfl, rounds, _, hr, rfl⟩

end Saber.Props

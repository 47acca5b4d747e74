import Verif.Model.TestKex
import Verif.Spec.Exchange
import Verif.Proof.KatMain
import Mathlib.Data.List.GetD
/-!
# Proofs about the test programs
-/
namespace Saber
open Spec Spec.Drbg Spec.KatFile Spec.Exchange

theorem keysDiffer_ok (a b : List Byte) (k : Nat) : ∀ j, a.length = j + k → b.length = j + k →
    keysDiffer a b k j = .ok (decide (a.drop j ≠ b.drop j)) := by
  induction k with
  | zero =>
    intro j ha hb
    rw [List.drop_of_length_le (by omega), List.drop_of_length_le (by omega)]
    simp [keysDiffer]
  | succ k ih =>
    intro j ha hb
    unfold keysDiffer
    have ja : j < a.length := by omega
    have jb : j < b.length := by omega
    rw [rd_ok 0 ja, ok_bind, rd_ok 0 jb, ok_bind, List.getD_eq_getElem _ _ ja, List.getD_eq_getElem _ _ jb, List.drop_eq_getElem_cons ja, List.drop_eq_getElem_cons jb]
    by_cases h : a[j] = b[j]
    · rw [if_neg (by simpa using h), ih (j + 1) (by omega) (by omega)]
      simp only [h, ne_eq, List.cons.injEq, true_and]
    · rw [if_pos h]
      simp only [h, ne_eq, List.cons.injEq, false_and, not_false_iff, decide_true]
      rfl

theorem kemPrint_ok (a b : List Byte) (k : Nat) : ∀ j out, a.length = j + k → b.length = j + k →
    kemPrint a b k j out = .ok (out ++ (((a.drop j).zip (b.drop j)).take (firstDifference (a.drop j) (b.drop j) + 1)).flatMap pairLine ++
      if a.drop j = b.drop j then [] else str " ----- ERR CCA KEM ------\n") := by
  induction k with
  | zero =>
    intro j out ha hb
    rw [List.drop_of_length_le (by omega), List.drop_of_length_le (by omega)]
    simp [kemPrint]
  | succ k ih =>
    intro j out ha hb
    unfold kemPrint
    have ja : j < a.length := by omega
    have jb : j < b.length := by omega
    rw [rd_ok 0 ja, ok_bind, rd_ok 0 jb, ok_bind, List.getD_eq_getElem _ _ ja, List.getD_eq_getElem _ _ jb, List.drop_eq_getElem_cons ja, List.drop_eq_getElem_cons jb]
    dsimp only
    by_cases h : a[j] = b[j]
    · rw [if_neg (by simpa using h), ih (j + 1) _ (by omega) (by omega)]
      unfold firstDifference
      rw [List.zip_cons_cons, List.takeWhile_cons_of_pos (by simpa using h), List.length_cons, List.take_succ_cons, List.flatMap_cons]
      simp only [h, List.cons.injEq, true_and, printNat_eq, pairLine, List.append_assoc]
    · rw [if_pos h]
      unfold firstDifference
      rw [List.zip_cons_cons, List.takeWhile_cons_of_neg (by simpa using h), List.length_nil, List.take_succ_cons, List.take_zero,
        List.flatMap_cons, if_neg (fun h' => h (List.cons.inj h').1)]
      simp only [printNat_eq, pairLine, List.append_assoc, List.flatMap_nil, List.append_nil]
      rfl

/-- Four strings of 32 bytes from the generator. -/
theorem four_draws {E : Cipher} (hE : BlockCipher E) (c0 : DRBG) (hw : c0.WF) (hr : -2147483648 ≤ c0.reseed_counter ∧ c0.reseed_counter < 2147483644) :
    ∃ c1 c2 c3 c4 b1 b2 b3 b4, Delivers (randombytes E) 32 c0 b1 c1 ∧ Delivers (randombytes E) 32 c1 b2 c2 ∧
      Delivers (randombytes E) 32 c2 b3 c3 ∧ Delivers (randombytes E) 32 c3 b4 c4 ∧
      run E c0.abs [32, 32, 32, 32] = ([b1, b2, b3, b4], c4.abs) ∧ c4.WF ∧ c4.reseed_counter = c0.reseed_counter + 4 := by
  have d1 := Delivers_drbg hE 32 (by omega) c0 hw (by omega)
  have w1 := drbgDraw_WF hE 32 c0
  have a1 := drbgDraw_abs hE 32 c0
  have r1 : (drbgDraw E 32 c0).2.reseed_counter = c0.reseed_counter + 1 := rfl
  have e1 : (drbgDraw E 32 c0).1 = (generate E c0.abs 32).1 := rfl
  generalize hc1 : (drbgDraw E 32 c0).2 = c1 at *
  have d2 := Delivers_drbg hE 32 (by omega) c1 w1 (by omega)
  have w2 := drbgDraw_WF hE 32 c1
  have a2 := drbgDraw_abs hE 32 c1
  have r2 : (drbgDraw E 32 c1).2.reseed_counter = c1.reseed_counter + 1 := rfl
  have e2 : (drbgDraw E 32 c1).1 = (generate E c1.abs 32).1 := rfl
  generalize hc2 : (drbgDraw E 32 c1).2 = c2 at *
  have d3 := Delivers_drbg hE 32 (by omega) c2 w2 (by omega)
  have w3 := drbgDraw_WF hE 32 c2
  have a3 := drbgDraw_abs hE 32 c2
  have r3 : (drbgDraw E 32 c2).2.reseed_counter = c2.reseed_counter + 1 := rfl
  have e3 : (drbgDraw E 32 c2).1 = (generate E c2.abs 32).1 := rfl
  generalize hc3 : (drbgDraw E 32 c2).2 = c3 at *
  have d4 := Delivers_drbg hE 32 (by omega) c3 w3 (by omega)
  have w4 := drbgDraw_WF hE 32 c3
  have a4 := drbgDraw_abs hE 32 c3
  have r4 : (drbgDraw E 32 c3).2.reseed_counter = c3.reseed_counter + 1 := rfl
  have e4 : (drbgDraw E 32 c3).1 = (generate E c3.abs 32).1 := rfl
  generalize hc4 : (drbgDraw E 32 c3).2 = c4 at *
  refine ⟨c1, c2, c3, c4, _, _, _, _, d1, d2, d3, d4, ?_, w4, by omega⟩
  rw [e1, e2, e3, e4]
  simp only [run]
  rw [a4, a3, a2, a1]

/-- The arrays have their sizes. -/
structure TestVars.Ok (v : TestVars) (K : KemApi) : Prop where
  /-- `pk` -/
  pk : v.pk.length = K.PUBLICKEYBYTES
  /-- `sk` -/
  sk : v.sk.length = K.SECRETKEYBYTES
  /-- `c` -/
  c : v.c.length = K.CIPHERTEXTBYTES
  /-- `k_a` -/
  k_a : v.k_a.length = 32
  /-- `k_b` -/
  k_b : v.k_b.length = 32
  /-- the generator -/
  ctx : v.ctx.WF

theorem testRound_ok {E : Cipher} (hE : BlockCipher E) (T : TestProg) {S : Kem} (hK : Implements T.K S E) (tick : Fin 6 → BitVec 64)
    (v : TestVars) (hv : v.Ok T.K) (hr : -2147483648 ≤ v.ctx.reseed_counter ∧ v.ctx.reseed_counter < 2147483644) :
    ∃ v', testRound T tick v = .ok (decide (secretA S (run E v.ctx.abs [32, 32, 32, 32]).1 ≠ secretB S (run E v.ctx.abs [32, 32, 32, 32]).1), v') ∧
      v'.Ok T.K ∧ v'.ctx.abs = (run E v.ctx.abs [32, 32, 32, 32]).2 ∧ v'.ctx.reseed_counter = v.ctx.reseed_counter + 4 ∧
      v'.kp = v.kp + (tick 1 - tick 0) ∧ v'.enc = v.enc + (tick 3 - tick 2) ∧ v'.dec = v.dec + (tick 5 - tick 4) := by
  obtain ⟨c1, c2, c3, c4, b1, b2, b3, b4, d1, d2, d3, d4, hrun, w4, r4⟩ := four_draws hE v.ctx hv.ctx hr
  have lpk := hK.lenPk b1 b2 d1.1
  have lsk := hK.lenSk b1 b2 b3 d1.1 d3.1
  have lct := hK.lenCt b4 (S.pk b1 b2)
  have lss := hK.lenSs b4 (S.pk b1 b2)
  have ldec := hK.lenDec (S.sk b1 b2 b3) (S.ct b4 (S.pk b1 b2))
  rw [hrun]
  refine ⟨⟨S.pk b1 b2, S.sk b1 b2 b3, S.ct b4 (S.pk b1 b2), S.ss b4 (S.pk b1 b2), S.dec (S.sk b1 b2 b3) (S.ct b4 (S.pk b1 b2)),
    v.kp + (tick 1 - tick 0), v.enc + (tick 3 - tick 2), v.dec + (tick 5 - tick 4), c4⟩, ?_, ⟨lpk, lsk, lct, lss, ldec, w4⟩, rfl, r4, rfl, rfl, rfl⟩
  unfold testRound
  rw [hK.keypair v.ctx c1 c2 c3 b1 b2 b3 d1 d2 d3 _ _ hv.pk hv.sk, ok_bind]
  dsimp only
  rw [hK.enc c3 c4 b4 d4 _ _ _ hv.c hv.k_a lpk, ok_bind]
  dsimp only
  rw [hK.dec _ _ _ hv.k_b lct lsk, ok_bind]
  dsimp only
  rw [keysDiffer_ok _ _ 32 0 (by omega) (by omega), ok_bind]
  rfl

theorem testRounds_ok {E : Cipher} (hE : BlockCipher E) (T : TestProg) {S : Kem} (hK : Implements T.K S E) (tick : Nat → Fin 6 → BitVec 64) (n : Nat) :
    ∀ (i : Nat) (out : List Byte) (v : TestVars), v.Ok T.K → -2147483648 ≤ v.ctx.reseed_counter → v.ctx.reseed_counter + 4 * n < 2147483648 →
    ((∀ d ∈ drawsFrom E v.ctx.abs n, secretA S d = secretB S d) → ∃ v', testRounds T tick n i out v = .ok (out ++ numberLines T.trace i n, some v') ∧
      v'.kp = v.kp + ((List.range' i n).map fun k => tick k 1 - tick k 0).sum ∧
      v'.enc = v.enc + ((List.range' i n).map fun k => tick k 3 - tick k 2).sum ∧
      v'.dec = v.dec + ((List.range' i n).map fun k => tick k 5 - tick k 4).sum) ∧
    (∀ j, (hj : j < (drawsFrom E v.ctx.abs n).length) → (∀ d ∈ (drawsFrom E v.ctx.abs n).take j, secretA S d = secretB S d) →
      secretA S (drawsFrom E v.ctx.abs n)[j] ≠ secretB S (drawsFrom E v.ctx.abs n)[j] →
      testRounds T tick n i out v = .ok (out ++ numberLines T.trace i (j + 1) ++ str "----- ERR CCA KEM ------\n", none)) := by
  induction n with
  | zero =>
    intro i out v _ _ _
    refine ⟨fun _ => ⟨v, ?_, ?_, ?_, ?_⟩, fun j hj => absurd hj (Nat.not_lt_zero _)⟩
    · simp [testRounds, numberLines]
    · simp
    · simp
    · simp
  | succ n ih =>
    intro i out v hv hl hr
    obtain ⟨v', h1, hv', ha, hc, t1, t2, t3⟩ := testRound_ok hE T hK (tick i) v hv ⟨hl, by push_cast at hr; omega⟩
    have hout : (if T.trace then out ++ str "i : " ++ printNat i ++ str "\n" else out) = out ++ numberLines T.trace i 1 := by
      unfold numberLines
      cases T.trace <;> simp [printNat_eq, List.append_assoc]
    have hlines : ∀ m, numberLines T.trace i (m + 1) = numberLines T.trace i 1 ++ numberLines T.trace (i + 1) m := by
      intro m
      unfold numberLines
      rw [List.range'_succ]
      simp
    have hstep : testRounds T tick (n + 1) i out v =
        if secretA S (run E v.ctx.abs [32, 32, 32, 32]).1 ≠ secretB S (run E v.ctx.abs [32, 32, 32, 32]).1 then
          .ok (out ++ numberLines T.trace i 1 ++ str "----- ERR CCA KEM ------\n", none)
        else testRounds T tick n (i + 1) (out ++ numberLines T.trace i 1) v' := by
      conv_lhs => unfold testRounds
      rw [hout, h1, ok_bind]
      dsimp only
      by_cases h : secretA S (run E v.ctx.abs [32, 32, 32, 32]).1 = secretB S (run E v.ctx.abs [32, 32, 32, 32]).1
      · rw [if_neg (by simpa using h), if_neg (by simpa using h)]
      · rw [if_pos (by simpa using h), if_pos h]
        rfl
    obtain ⟨ih1, ih2⟩ := ih (i + 1) (out ++ numberLines T.trace i 1) v' hv' (by omega) (by push_cast at hr; omega)
    rw [ha] at ih1 ih2
    constructor
    · intro hall
      have hall' := hall
      unfold drawsFrom at hall'
      rw [List.forall_mem_cons] at hall'
      obtain ⟨w, hw, u1, u2, u3⟩ := ih1 hall'.2
      refine ⟨w, ?_, ?_, ?_, ?_⟩
      · rw [hstep, if_neg (by simpa using hall'.1), hw, hlines n, List.append_assoc]
      · rw [u1, t1, List.range'_succ, List.map_cons, List.sum_cons, BitVec.add_assoc]
      · rw [u2, t2, List.range'_succ, List.map_cons, List.sum_cons, BitVec.add_assoc]
      · rw [u3, t3, List.range'_succ, List.map_cons, List.sum_cons, BitVec.add_assoc]
    · intro j hj hb hf
      cases j with
      | zero =>
        rw [hstep, if_pos (by simpa [drawsFrom] using hf)]
      | succ j =>
        have hb' := hb
        rw [show drawsFrom E v.ctx.abs (n + 1) = (run E v.ctx.abs [32, 32, 32, 32]).1 :: drawsFrom E (run E v.ctx.abs [32, 32, 32, 32]).2 n from rfl,
          List.take_succ_cons, List.forall_mem_cons] at hb'
        rw [hstep, if_neg (by simpa using hb'.1), ih2 j (by simpa [drawsFrom] using hj) hb'.2 (by simpa [drawsFrom] using hf), hlines (j + 1)]
        simp only [List.append_assoc]

theorem toNat_sum (l : List (BitVec 64)) : l.sum.toNat = (l.map BitVec.toNat).sum % 2 ^ 64 := by
  induction l with
  | nil => rfl
  | cons a l ih => rw [List.sum_cons, List.map_cons, List.sum_cons, BitVec.toNat_add, ih]; simp [Nat.add_mod]

theorem divide_average (N : Nat) (hN : 0 < N) (start stop : Nat → BitVec 64) :
    divide (0 + ((List.range' 0 N).map fun k => stop k - start k).sum) N = .ok (average N start stop) := by
  unfold divide average
  rw [if_neg (by omega), show ∀ x : BitVec 64, 0 + x = x from BitVec.zero_add, toNat_sum, List.map_map, List.range_eq_range']
  rfl

theorem length_drawsFrom (E : Cipher) (n : Nat) : ∀ s, (drawsFrom E s n).length = n := by
  induction n with
  | zero => intro s; rfl
  | succ n ih => intro s; unfold drawsFrom; rw [List.length_cons, ih]

theorem testKexN_ok {E : Cipher} (hE : BlockCipher E) (T : TestProg) {S : Kem} (hK : Implements T.K S E) (hp : T.pkBytes = T.K.PUBLICKEYBYTES)
    (hs : T.skBytes = T.K.SECRETKEYBYTES) (hc : T.ctBytes = T.K.CIPHERTEXTBYTES) (N : Nat) (hN0 : 0 < N) (hN : N < 2 ^ 29) (tick : Nat → Fin 6 → BitVec 64)
    (ctx : DRBG) (hw : ctx.WF) :
    ((∀ d ∈ exchanges E N, secretA S d = secretB S d) → testKexN E T N tick ctx = .ok (0, T.head ++ numberLines T.trace 0 N ++
      str "Repeat is : " ++ decimal N ++ str "\n" ++
      str "Average times key_pair: \t " ++ decimal (average N (tick · 0) (tick · 1)) ++ str " \n" ++
      str "Average times enc: \t " ++ decimal (average N (tick · 2) (tick · 3)) ++ str " \n" ++
      str "Average times dec: \t " ++ decimal (average N (tick · 4) (tick · 5)) ++ str " \n" ++ T.tail)) ∧
    (∀ j, (hj : j < (exchanges E N).length) → (∀ d ∈ (exchanges E N).take j, secretA S d = secretB S d) →
      secretA S (exchanges E N)[j] ≠ secretB S (exchanges E N)[j] →
      testKexN E T N tick ctx = .ok (0, T.head ++ numberLines T.trace 0 (j + 1) ++ str "----- ERR CCA KEM ------\n")) := by
  obtain ⟨c0, hc0, hw0, hr0, ha0⟩ := randombytes_init_ok hE entropy (by decide) none (by simp) ctx hw
  have ha : c0.abs = instantiate E entropy (List.replicate 48 0) := by
    rw [ha0, List.take_of_length_le (by decide)]; rfl
  obtain ⟨g1, g2⟩ := testRounds_ok hE T hK tick N 0 T.head ⟨uninit 8 92 T.pkBytes, uninit 8 93 T.skBytes, uninit 8 94 T.ctBytes, uninit 8 95 32,
      uninit 8 96 32, 0, 0, 0, c0⟩ ⟨by simpa using hp, by simpa using hs, by simpa using hc, length_uninit _ _ _, length_uninit _ _ _, hw0⟩
    (by dsimp only; omega) (by dsimp only; omega)
  dsimp only at g1 g2
  rw [ha] at g1 g2
  constructor
  · intro hall
    obtain ⟨v', hv, t1, t2, t3⟩ := g1 hall
    unfold testKexN
    rw [entropy_ok, ok_bind, hc0, ok_bind, hv, ok_bind]
    dsimp only
    rw [t1, t2, t3, divide_average N hN0, divide_average N hN0, divide_average N hN0]
    simp only [ok_bind, printNat_eq]
    rfl
  · intro j hj hb hf
    unfold testKexN
    rw [entropy_ok, ok_bind, hc0, ok_bind, g2 j hj hb hf, ok_bind]
    rfl

theorem kemMain_ok {E : Cipher} (hE : BlockCipher E) {K : KemApi} {S : Kem} (hK : Implements K S E) (ctx : DRBG) (hw : ctx.WF) :
    ∃ d ∈ exchanges E 1, kemMain E K ctx = .ok (0,
      (((secretA S d).zip (secretB S d)).take (firstDifference (secretA S d) (secretB S d) + 1)).flatMap pairLine ++
        if secretA S d = secretB S d then [] else str " ----- ERR CCA KEM ------\n") := by
  obtain ⟨c0, hc0, hw0, hr0, ha0⟩ := randombytes_init_ok hE entropy (by decide) none (by simp) ctx hw
  have ha : c0.abs = instantiate E entropy (List.replicate 48 0) := by
    rw [ha0, List.take_of_length_le (by decide)]; rfl
  obtain ⟨c1, c2, c3, c4, b1, b2, b3, b4, d1, d2, d3, d4, hrun, w4, r4⟩ := four_draws hE c0 hw0 (by omega)
  have lpk := hK.lenPk b1 b2 d1.1
  have lsk := hK.lenSk b1 b2 b3 d1.1 d3.1
  have lct := hK.lenCt b4 (S.pk b1 b2)
  have lss := hK.lenSs b4 (S.pk b1 b2)
  have ldec := hK.lenDec (S.sk b1 b2 b3) (S.ct b4 (S.pk b1 b2))
  refine ⟨[b1, b2, b3, b4], ?_, ?_⟩
  · unfold exchanges
    rw [← ha]
    unfold drawsFrom
    rw [hrun]
    exact List.mem_cons_self
  · unfold kemMain
    rw [entropy_ok, ok_bind, hc0, ok_bind, hK.keypair c0 c1 c2 c3 b1 b2 b3 d1 d2 d3 _ _ (length_uninit _ _ _) (length_uninit _ _ _), ok_bind]
    dsimp only
    rw [hK.enc c3 c4 b4 d4 _ _ _ (length_uninit _ _ _) (length_uninit _ _ _) lpk, ok_bind]
    dsimp only
    rw [hK.dec _ _ _ (length_uninit _ _ _) lct lsk, ok_bind]
    dsimp only
    rw [kemPrint_ok _ _ 32 0 [] (by omega) (by omega), ok_bind]
    rfl

end Saber

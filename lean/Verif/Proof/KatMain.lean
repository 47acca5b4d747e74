import Verif.Model.KatMain
import Verif.Proof.Kat
import Verif.Proof.Rng
import Verif.Proof.Indcpa
/-!
# Proofs about the program of the known-answer tests
-/
namespace Saber
open Spec Spec.Drbg Spec.Hex Spec.KatFile

/-! ### Decimal numbers -/

theorem printNat_eq (n : Nat) : printNat n = decimal n := by
  induction n using Nat.strong_induction_on with
  | h n ih =>
    unfold printNat decimal
    split
    · rfl
    · rw [ih (n / 10) (by omega)]; rfl

theorem printInt_eq (n : Nat) : printInt (n : Int) = decimal n := by
  unfold printInt
  rw [if_neg (by omega), Int.natAbs_natCast, printNat_eq]

theorem scanDigits_decimal (n : Nat) : ∀ (s : List Byte) (k v : Nat),
    scanDigits (decimal n ++ s) k v = scanDigits s (k + (decimal n).length) (10 ^ (decimal n).length * v + n) := by
  induction n using Nat.strong_induction_on with
  | h n ih =>
    intro s k v
    have step : ∀ d, d < 10 → ∀ s k v, scanDigits (BitVec.ofNat 8 (48 + d) :: s) k v = scanDigits s (k + 1) (10 * v + d) := by
      intro d hd s k v
      have e : (BitVec.ofNat 8 (48 + d)).toNat = 48 + d := by rw [BitVec.toNat_ofNat]; omega
      unfold scanDigits
      rw [e, if_pos (by omega), show 48 + d - 48 = d by omega]
      cases s <;> rfl
    unfold decimal
    split
    · rename_i h
      rw [List.singleton_append, step n h]
      simp
    · rename_i h
      rw [List.append_assoc, ih (n / 10) (by omega), List.singleton_append, step _ (by omega), List.length_append, List.length_singleton,
        pow_succ]
      congr 1
      have : 10 * (n / 10) + n % 10 = n := by omega
      linarith

theorem decimal_head (n : Nat) : ∃ d t, decimal n = d :: t ∧ 48 ≤ d.toNat ∧ d.toNat ≤ 57 := by
  induction n using Nat.strong_induction_on with
  | h n ih =>
    unfold decimal
    split
    · rename_i h
      exact ⟨_, _, rfl, by rw [BitVec.toNat_ofNat]; omega, by rw [BitVec.toNat_ofNat]; omega⟩
    · obtain ⟨d, t, h, h1, h2⟩ := ih (n / 10) (by omega)
      rw [h]
      exact ⟨d, _, rfl, h1, h2⟩

theorem fscanfInt_ok (n : Nat) (hn : n ≤ 2147483647) (c : Byte) (hc : ¬ (48 ≤ c.toNat ∧ c.toNat ≤ 57)) (rest : List Byte) (old : Option Int) :
    fscanfInt (decimal n ++ c :: rest) old = .ok (some (n : Int), c :: rest) := by
  have hs : scanDigits (decimal n ++ c :: rest) 0 0 = ((decimal n).length, n, c :: rest) := by
    rw [scanDigits_decimal, scanDigits, if_neg hc]
    simp
  obtain ⟨d, t, h, h1, h2⟩ := decimal_head n
  have hsp : isspace d = false := by
    have e : d ≠ 32 := by rintro rfl; simp at h1
    unfold isspace
    rw [decide_eq_false e, Bool.false_or, Bool.and_eq_false_iff]
    exact Or.inr (decide_eq_false (by omega))
  have e1 : d ≠ 45 := by rintro rfl; simp at h1
  have e2 : d ≠ 43 := by rintro rfl; simp at h1
  have hsg : scanSign ((decimal n ++ c :: rest).dropWhile isspace) = (false, decimal n ++ c :: rest) := by
    rw [h, List.cons_append, List.dropWhile_cons_of_neg (by simp [hsp]), scanSign, if_neg e1, if_neg e2]
  have hl : (decimal n).length = t.length + 1 := by rw [h]; rfl
  unfold fscanfInt
  simp only [hsg, hs, hl]
  rw [if_pos]
  · rfl
  · simp only [Bool.false_eq_true, if_false]; omega

/-! ### The generator -/

theorem Delivers_drbg {E : Cipher} (hE : BlockCipher E) (n : Nat) (hn : n < 2147483648) (ctx : DRBG) (hw : ctx.WF)
    (hr : -2147483648 ≤ ctx.reseed_counter ∧ ctx.reseed_counter < 2147483647) :
    Delivers (randombytes E) n ctx (drbgDraw E n ctx).1 (drbgDraw E n ctx).2 :=
  ⟨length_drbgDraw hE n ctx, fun buf off h => randombytes_ok hE buf off n ctx hw hr hn h⟩

theorem run_snoc (E : Cipher) (ns : List Nat) (n : Nat) : ∀ s, run E s (ns ++ [n]) =
    ((run E s ns).1 ++ [(generate E (run E s ns).2 n).1], (generate E (run E s ns).2 n).2) := by
  induction ns with
  | nil => intro s; rfl
  | cons m ns ih =>
    intro s
    rw [List.cons_append]
    unfold run
    dsimp only
    rw [ih]
    rfl

theorem length_run (E : Cipher) (ns : List Nat) : ∀ s, (run E s ns).1.length = ns.length := by
  induction ns with
  | nil => intro s; rfl
  | cons m ns ih => intro s; unfold run; simp [ih]

/-- The first `n` seeds from a state. -/
def seedsFrom (E : Cipher) (s : State) (n : Nat) : List (List Byte) := (run E s (List.replicate n 48)).1

theorem seedsFrom_succ (E : Cipher) (s : State) (n : Nat) :
    seedsFrom E s (n + 1) = seedsFrom E s n ++ [(generate E (run E s (List.replicate n 48)).2 48).1] := by
  unfold seedsFrom
  rw [List.replicate_succ', run_snoc]

theorem length_seedsFrom (E : Cipher) (s : State) (n : Nat) : (seedsFrom E s n).length = n := by
  unfold seedsFrom; rw [length_run]; simp

theorem seedsFrom_take (E : Cipher) (s : State) (n j : Nat) (h : j ≤ n) : (seedsFrom E s n).take j = seedsFrom E s j := by
  induction n with
  | zero => rw [show j = 0 by omega]; rfl
  | succ n ih =>
    rcases Nat.lt_or_ge n j with h1 | h1
    · rw [show j = n + 1 by omega, List.take_of_length_le (by rw [length_seedsFrom])]
    · rw [seedsFrom_succ, List.take_append_of_le_length (by rw [length_seedsFrom]; exact h1), ih h1]

theorem length_generate {E : Cipher} (hE : BlockCipher E) (s : State) (n : Nat) : (generate E s n).1.length = n := by
  unfold generate
  rw [List.length_take, length_stream hE]
  unfold blocks
  omega

theorem mem_seedsFrom {E : Cipher} (hE : BlockCipher E) (s : State) (n : Nat) : ∀ x ∈ seedsFrom E s n, x.length = 48 := by
  induction n with
  | zero => intro x hx; simp [seedsFrom, run] at hx
  | succ n ih =>
    intro x hx
    rw [seedsFrom_succ, List.mem_append] at hx
    rcases hx with hx | hx
    · exact ih x hx
    · rw [List.mem_singleton] at hx
      rw [hx, length_generate hE]

/-! ### The request file -/

/-- Request entries of numbered seeds. -/
def reqOf (l : List (List Byte)) (i : Nat) : List Byte := (l.zipIdx i).flatMap fun s => request s.2 s.1

theorem reqOf_snoc (l : List (List Byte)) (x : List Byte) (i : Nat) : reqOf (l ++ [x]) i = reqOf l i ++ request (i + l.length) x := by
  unfold reqOf
  rw [List.zipIdx_append, List.flatMap_append]
  simp [Nat.add_comm]

theorem reqOf_cons (l : List (List Byte)) (x : List Byte) (i : Nat) : reqOf (x :: l) i = request i x ++ reqOf l (i + 1) := by
  unfold reqOf
  simp

theorem fprintBstr_line (fp A : List Byte) (label : String) (L : Nat) (hL : 0 < L) (hA : A.length = L) :
    fprintBstr fp (str label) A L = .ok (fp ++ line label A) := by
  rw [fprintBstr_ok fp _ A L hL (by omega), List.take_of_length_le (by omega)]
  unfold line
  rw [show str "\n" = [10] by decide]
  simp only [List.append_assoc]

theorem katRequests_ok {E : Cipher} (hE : BlockCipher E) (N : Nat) (hN : N ≤ 2147483646) (seed : List Byte) (hs : seed.length = 48)
    (ctx : DRBG) (hw : ctx.WF) (hr : ctx.reseed_counter = 1) :
    ∃ seed' ctx', katRequests E N seed ctx = .ok (reqOf (seedsFrom E ctx.abs N) 0, seed', ctx') ∧ seed'.length = 48 ∧ ctx'.WF := by
  unfold katRequests
  obtain ⟨⟨req, seed', ctx'⟩, hl, h1, h2, h3, h4, h5⟩ := loop_inv (n := N) (s := (([], seed, ctx) : List Byte × List Byte × DRBG))
    (body := fun i x => (do
      let req := x.1 ++ str "count = " ++ printInt i ++ str "\n"
      let y ← randombytes E x.2.1 0 48 x.2.2
      let req ← fprintBstr req (str "seed = ") y.1 48
      pure (req ++ str "pk =\n" ++ str "sk =\n" ++ str "ct =\n" ++ str "ss =\n\n", y.1, y.2)))
    (fun i x => x.1 = reqOf (seedsFrom E ctx.abs i) 0 ∧ x.2.1.length = 48 ∧ x.2.2.WF ∧ x.2.2.reseed_counter = 1 + i ∧
      x.2.2.abs = (run E ctx.abs (List.replicate i 48)).2)
    ⟨rfl, hs, hw, by rw [hr]; rfl, rfl⟩ (by
      rintro i ⟨req, sd, c⟩ hi ⟨h1, h2, h3, h4, h5⟩
      dsimp only at h1 h2 h3 h4 h5 ⊢
      have hlen := length_drbgDraw hE 48 c
      rw [randombytes_ok hE sd 0 48 c h3 (by omega) (by omega) (by omega), ok_bind]
      dsimp only
      rw [writeAt_full _ _ (by omega), fprintBstr_line _ _ _ _ (by omega) hlen, ok_bind]
      refine Ok.pure ⟨?_, hlen, drbgDraw_WF hE 48 c, ?_, ?_⟩
      · have hd : (drbgDraw E 48 c).1 = (generate E (run E ctx.abs (List.replicate i 48)).2 48).1 := by rw [← h5]; rfl
        dsimp only
        rw [seedsFrom_succ, reqOf_snoc, length_seedsFrom, Nat.zero_add, h1, ← hd, printInt_eq]
        unfold request
        rw [show str "pk =\nsk =\nct =\nss =\n\n" = str "pk =\n" ++ (str "sk =\n" ++ (str "ct =\n" ++ str "ss =\n\n")) by decide]
        simp only [List.append_assoc]
      · show c.reseed_counter + 1 = _
        rw [h4]; push_cast; ring
      · rw [drbgDraw_abs hE, List.replicate_succ', run_snoc, h5])
  dsimp only at h1 h2 h3
  exact ⟨seed', ctx', by rw [← h1]; exact hl, h2, h3⟩

/-! ### The response file -/

/-- The functions `K` compute the scheme `S` on the random bytes that `randombytes` delivers. -/
structure Implements (K : KemApi) (S : Kem) (E : Cipher) : Prop where
  /-- same name -/
  name : K.ALGNAME = S.name
  /-- no array is empty -/
  pos : 0 < K.PUBLICKEYBYTES ∧ 0 < K.SECRETKEYBYTES ∧ 0 < K.CIPHERTEXTBYTES
  /-- key generation -/
  keypair : ∀ st st1 st2 st3 r1 r2 z, Delivers (randombytes E) 32 st r1 st1 → Delivers (randombytes E) 32 st1 r2 st2 →
    Delivers (randombytes E) 32 st2 z st3 → ∀ pk sk, pk.length = K.PUBLICKEYBYTES → sk.length = K.SECRETKEYBYTES →
    K.keypair pk sk st = .ok (0, S.pk r1 r2, S.sk r1 r2 z, st3)
  /-- length of the public key -/
  lenPk : ∀ r1 r2, r1.length = 32 → (S.pk r1 r2).length = K.PUBLICKEYBYTES
  /-- length of the secret key -/
  lenSk : ∀ r1 r2 z, r1.length = 32 → z.length = 32 → (S.sk r1 r2 z).length = K.SECRETKEYBYTES
  /-- encapsulation -/
  enc : ∀ st st1 m, Delivers (randombytes E) 32 st m st1 → ∀ c k pk, c.length = K.CIPHERTEXTBYTES → k.length = 32 →
    pk.length = K.PUBLICKEYBYTES → K.enc c k pk st = .ok (0, S.ct m pk, S.ss m pk, st1)
  /-- length of the ciphertext -/
  lenCt : ∀ m pk, (S.ct m pk).length = K.CIPHERTEXTBYTES
  /-- length of the shared secret -/
  lenSs : ∀ m pk, (S.ss m pk).length = 32
  /-- decapsulation -/
  dec : ∀ k c sk, k.length = 32 → c.length = K.CIPHERTEXTBYTES → sk.length = K.SECRETKEYBYTES → K.dec k c sk = .ok (0, S.dec sk c)
  /-- length of the shared secret -/
  lenDec : ∀ sk c, (S.dec sk c).length = 32

/-- The arrays have their sizes. -/
structure KatVars.Ok (v : KatVars) (K : KemApi) : Prop where
  /-- `seed` -/
  seed : v.seed.length = 48
  /-- `pk` -/
  pk : v.pk.length = K.PUBLICKEYBYTES
  /-- `sk` -/
  sk : v.sk.length = K.SECRETKEYBYTES
  /-- `ct` -/
  ct : v.ct.length = K.CIPHERTEXTBYTES
  /-- `ss` -/
  ss : v.ss.length = 32
  /-- `ss1` -/
  ss1 : v.ss1.length = 32
  /-- the generator -/
  ctx : v.ctx.WF

theorem memcmpEq_ok (a b : List Byte) (n : Nat) (ha : a.length = n) (hb : b.length = n) : memcmpEq a b n = .ok (decide (a = b)) := by
  have := strncmpEq_ok a b n (by omega) (by omega)
  rw [List.take_of_length_le (by omega), List.take_of_length_le (by omega)] at this
  exact this

/-- What stands before the next entry: nothing, or the empty lines of the last entry. -/
def Before (pre : List Byte) : Prop := pre = [] ∨ pre = str "pk =\nsk =\nct =\nss =\n\n"

theorem FindMarker_count (pre X : List Byte) (h : Before pre) : FindMarker (pre ++ str "count = " ++ X) (str "count = ") = .ok (1, X) := by
  have := FindMarker_ok (pre ++ str "count = " ++ X) (str "count = ")
  rw [List.take_of_length_le (by decide), after_extend _ _ _ (by rcases h with rfl | rfl <;> decide +kernel)] at this
  exact this

theorem FindMarker_end (pre : List Byte) (h : Before pre) : FindMarker pre (str "count = ") = .ok (0, []) := by
  have := FindMarker_ok pre (str "count = ")
  rw [List.take_of_length_le (by decide), show after (str "count = ") pre = none by rcases h with rfl | rfl <;> decide +kernel] at this
  exact this

theorem ReadHex_seed (x buf R : List Byte) (hx : x.length = 48) (hb : buf.length = 48) :
    ReadHex (str "\n" ++ line "seed = " x ++ R) buf 48 (str "seed = ") = .ok (1, x, R) := by
  have ha : after (str "seed = ") (str "\n" ++ line "seed = " x ++ R) = some ([] ++ text x ++ 10 :: R) := by
    have := after_extend (str "seed = ") (str "\n") (text x ++ 10 :: R) (by decide +kernel)
    unfold line
    rw [show str "\n" = [10] by decide] at *
    simpa [List.append_assoc] using this
  have hne : text x ≠ [] := by
    cases x with
    | nil => simp at hx
    | cons a A => simp [text]
  rw [ReadHex_ok _ _ buf 48 (by omega) hb (by decide) [] (text x) (by simp) (text_isHex x) hne 10 (by decide) R ha, value_text,
    ← hx, toBE_ofBE]

theorem katRespond_step {E : Cipher} (hE : BlockCipher E) {K : KemApi} {S : Kem} (hK : Implements K S E) (pre : List Byte) (hpre : Before pre)
    (i : Nat) (hi : i ≤ 2147483647) (x : List Byte) (hx : x.length = 48) (R rsp : List Byte) (v : KatVars) (hv : v.Ok K) (fuel : Nat) :
    ∃ v' : KatVars, v'.Ok K ∧ (agrees S E x → katRespond E K (fuel + 1) (pre ++ request i x ++ R) rsp v =
        katRespond E K fuel (str "pk =\nsk =\nct =\nss =\n\n" ++ R) (rsp ++ response S E i x) v') ∧
      (¬ agrees S E x → katRespond E K (fuel + 1) (pre ++ request i x ++ R) rsp v = .ok (-4, rsp ++ response S E i x)) := by
  obtain ⟨c0, hc0, hw0, hr0, ha0⟩ := randombytes_init_ok hE x (by omega) none (by simp) v.ctx hv.ctx
  rw [List.take_of_length_le (by omega)] at ha0
  -- the four strings of random bytes
  have d1 := Delivers_drbg hE 32 (by omega) c0 hw0 (by omega)
  have w1 := drbgDraw_WF hE 32 c0
  have a1 := drbgDraw_abs hE 32 c0
  have r1 : (drbgDraw E 32 c0).2.reseed_counter = 2 := by show c0.reseed_counter + 1 = 2; omega
  have e1 : (drbgDraw E 32 c0).1 = (generate E c0.abs 32).1 := rfl
  generalize hc1 : (drbgDraw E 32 c0).2 = c1 at *
  have d2 := Delivers_drbg hE 32 (by omega) c1 w1 (by omega)
  have w2 := drbgDraw_WF hE 32 c1
  have a2 := drbgDraw_abs hE 32 c1
  have r2 : (drbgDraw E 32 c1).2.reseed_counter = 3 := by show c1.reseed_counter + 1 = 3; omega
  have e2 : (drbgDraw E 32 c1).1 = (generate E c1.abs 32).1 := rfl
  generalize hc2 : (drbgDraw E 32 c1).2 = c2 at *
  have d3 := Delivers_drbg hE 32 (by omega) c2 w2 (by omega)
  have w3 := drbgDraw_WF hE 32 c2
  have a3 := drbgDraw_abs hE 32 c2
  have r3 : (drbgDraw E 32 c2).2.reseed_counter = 4 := by show c2.reseed_counter + 1 = 4; omega
  have e3 : (drbgDraw E 32 c2).1 = (generate E c2.abs 32).1 := rfl
  generalize hc3 : (drbgDraw E 32 c2).2 = c3 at *
  have d4 := Delivers_drbg hE 32 (by omega) c3 w3 (by omega)
  have w4 := drbgDraw_WF hE 32 c3
  have e4 : (drbgDraw E 32 c3).1 = (generate E c3.abs 32).1 := rfl
  generalize hc4 : (drbgDraw E 32 c3).2 = c4 at *
  have hdr : draws E x = [(drbgDraw E 32 c0).1, (drbgDraw E 32 c1).1, (drbgDraw E 32 c2).1, (drbgDraw E 32 c3).1] := by
    rw [e1, e2, e3, e4]
    unfold draws
    have : instantiate E x (List.replicate 48 0) = c0.abs := by rw [ha0]; rfl
    rw [this]
    simp only [run]
    rw [a3, a2, a1]
  generalize hg1 : (drbgDraw E 32 c0).1 = b1 at *
  generalize hg2 : (drbgDraw E 32 c1).1 = b2 at *
  generalize hg3 : (drbgDraw E 32 c2).1 = b3 at *
  generalize hg4 : (drbgDraw E 32 c3).1 = b4 at *
  have lpk := hK.lenPk b1 b2 d1.1
  have lsk := hK.lenSk b1 b2 b3 d1.1 d3.1
  have lct := hK.lenCt b4 (S.pk b1 b2)
  have lss := hK.lenSs b4 (S.pk b1 b2)
  have ldec := hK.lenDec (S.sk b1 b2 b3) (S.ct b4 (S.pk b1 b2))
  have hresp : response S E i x = str "count = " ++ decimal i ++ str "\n" ++ line "seed = " x ++ line "pk = " (S.pk b1 b2) ++
      line "sk = " (S.sk b1 b2 b3) ++ line "ct = " (S.ct b4 (S.pk b1 b2)) ++ line "ss = " (S.ss b4 (S.pk b1 b2)) ++ str "\n" := by
    unfold response
    rw [hdr]
    rfl
  have hagr : agrees S E x ↔ S.dec (S.sk b1 b2 b3) (S.ct b4 (S.pk b1 b2)) = S.ss b4 (S.pk b1 b2) := by
    unfold agrees
    rw [hdr]
    rfl
  have hfile : pre ++ request i x ++ R =
      pre ++ str "count = " ++ (decimal i ++ 10 :: (line "seed = " x ++ (str "pk =\nsk =\nct =\nss =\n\n" ++ R))) := by
    unfold request
    rw [show str "\n" = [10] by decide]
    simp [List.append_assoc]
  have hseed := ReadHex_seed x v.seed (str "pk =\nsk =\nct =\nss =\n\n" ++ R) hx hv.seed
  rw [show str "\n" ++ line "seed = " x ++ (str "pk =\nsk =\nct =\nss =\n\n" ++ R) =
    10 :: (line "seed = " x ++ (str "pk =\nsk =\nct =\nss =\n\n" ++ R)) by rw [show str "\n" = [10] by decide]; simp] at hseed
  refine ⟨⟨some i, x, S.pk b1 b2, S.sk b1 b2 b3, S.ct b4 (S.pk b1 b2), S.ss b4 (S.pk b1 b2), S.dec (S.sk b1 b2 b3) (S.ct b4 (S.pk b1 b2)), c4⟩,
    ⟨hx, lpk, lsk, lct, lss, ldec, w4⟩, ?_⟩
  have main : katRespond E K (fuel + 1) (pre ++ request i x ++ R) rsp v =
      (if decide (S.ss b4 (S.pk b1 b2) = S.dec (S.sk b1 b2 b3) (S.ct b4 (S.pk b1 b2))) then
        katRespond E K fuel (str "pk =\nsk =\nct =\nss =\n\n" ++ R) (rsp ++ response S E i x)
          ⟨some i, x, S.pk b1 b2, S.sk b1 b2 b3, S.ct b4 (S.pk b1 b2), S.ss b4 (S.pk b1 b2), S.dec (S.sk b1 b2 b3) (S.ct b4 (S.pk b1 b2)), c4⟩
      else .ok (-4, rsp ++ response S E i x)) := by
    rw [hfile]
    conv_lhs => unfold katRespond
    rw [FindMarker_count _ _ hpre, ok_bind]
    dsimp only
    rw [if_pos (by decide), fscanfInt_ok i hi 10 (by decide), ok_bind]
    dsimp only
    rw [show useInt (some (i : Int)) = .ok (i : Int) from rfl, ok_bind, hseed, ok_bind]
    dsimp only
    rw [if_neg (by decide), fprintBstr_line _ _ _ _ (by omega) hx, ok_bind, hc0, ok_bind,
      hK.keypair c0 c1 c2 c3 b1 b2 b3 d1 d2 d3 _ _ hv.pk hv.sk, ok_bind]
    dsimp only
    rw [if_neg (by decide), fprintBstr_line _ _ _ _ hK.pos.1 lpk, ok_bind, fprintBstr_line _ _ _ _ hK.pos.2.1 lsk, ok_bind,
      hK.enc c3 c4 b4 d4 _ _ _ hv.ct hv.ss lpk, ok_bind]
    dsimp only
    rw [if_neg (by decide), fprintBstr_line _ _ _ _ hK.pos.2.2 lct, ok_bind, fprintBstr_line _ _ _ _ (by omega) lss, ok_bind,
      hK.dec _ _ _ hv.ss1 lct lsk, ok_bind]
    dsimp only
    rw [if_neg (by decide), memcmpEq_ok _ _ _ lss ldec, ok_bind, hresp, printInt_eq]
    simp only [List.append_assoc]
    rfl
  rw [main]
  constructor
  · intro h
    rw [if_pos (decide_eq_true (hagr.mp h).symm)]
  · intro h
    rw [if_neg]
    intro h'
    exact h (hagr.mpr (of_decide_eq_true h').symm)

/-- Response entries of numbered seeds. -/
def rspOf (S : Kem) (E : Cipher) (l : List (List Byte)) (i : Nat) : List Byte := (l.zipIdx i).flatMap fun s => response S E s.2 s.1

theorem rspOf_cons (S : Kem) (E : Cipher) (l : List (List Byte)) (x : List Byte) (i : Nat) :
    rspOf S E (x :: l) i = response S E i x ++ rspOf S E l (i + 1) := by
  unfold rspOf
  simp

theorem katRespond_all {E : Cipher} (hE : BlockCipher E) {K : KemApi} {S : Kem} (hK : Implements K S E) (l : List (List Byte)) :
    ∀ (pre : List Byte) (_ : Before pre) (i : Nat) (_ : i + l.length ≤ 2147483648) (_ : ∀ x ∈ l, x.length = 48) (rsp : List Byte) (v : KatVars)
      (_ : v.Ok K) (fuel : Nat) (_ : l.length < fuel),
    ((∀ x ∈ l, agrees S E x) → katRespond E K fuel (pre ++ reqOf l i) rsp v = .ok (0, rsp ++ rspOf S E l i)) ∧
    (∀ j, (hj : j < l.length) → (∀ x ∈ l.take j, agrees S E x) → ¬ agrees S E l[j] →
      katRespond E K fuel (pre ++ reqOf l i) rsp v = .ok (-4, rsp ++ rspOf S E (l.take (j + 1)) i)) := by
  induction l with
  | nil =>
    intro pre hpre i hi _ rsp v hv fuel hf
    obtain ⟨fuel, rfl⟩ : ∃ k, fuel = k + 1 := ⟨fuel - 1, by rw [List.length_nil] at hf; omega⟩
    refine ⟨fun _ => ?_, fun j hj => by simp at hj⟩
    unfold katRespond
    rw [show pre ++ reqOf [] i = pre by simp [reqOf], FindMarker_end _ hpre, ok_bind]
    dsimp only
    rw [if_neg (by decide), show rspOf S E [] i = [] from rfl, List.append_nil]
    rfl
  | cons x l ih =>
    intro pre hpre i hi hl rsp v hv fuel hf
    rw [List.length_cons] at hi hf
    obtain ⟨fuel, rfl⟩ : ∃ k, fuel = k + 1 := ⟨fuel - 1, by omega⟩
    obtain ⟨v', hv', h1, h2⟩ := katRespond_step hE hK pre hpre i (by omega) x (hl x (by simp)) (reqOf l (i + 1)) rsp v hv fuel
    obtain ⟨ih1, ih2⟩ := ih _ (Or.inr rfl) (i + 1) (by omega) (fun y hy => hl y (by simp [hy])) (rsp ++ response S E i x) v' hv' fuel (by omega)
    rw [reqOf_cons, ← List.append_assoc]
    constructor
    · intro h
      rw [h1 (h x (by simp)), ih1 (fun y hy => h y (by simp [hy])), rspOf_cons, List.append_assoc]
    · intro j hj hbefore hfail
      cases j with
      | zero =>
        rw [h2 hfail, List.take_succ_cons, List.take_zero, rspOf_cons, show rspOf S E [] (i + 1) = [] from rfl, List.append_nil]
      | succ j =>
        rw [List.take_succ_cons] at hbefore
        rw [h1 (hbefore x (by simp)), ih2 j (by rw [List.length_cons] at hj; omega) (fun y hy => hbefore y (by simp [hy])) hfail,
          List.take_succ_cons, rspOf_cons, List.append_assoc]

theorem length_reqOf (l : List (List Byte)) : ∀ i, l.length ≤ (reqOf l i).length := by
  induction l with
  | nil => intro i; exact Nat.zero_le _
  | cons x l ih =>
    intro i
    have := ih (i + 1)
    rw [reqOf_cons, List.length_append, List.length_cons]
    have h8 : 0 < (request i x).length := by
      unfold request
      have : (str "count = ").length = 8 := by decide
      simp only [List.length_append, this]
      omega
    omega

theorem entropy_ok : (loop 48 (uninit 8 90 48) fun i a => wr a i (n8 i)) = .ok entropy := by
  rw [loop_rows 48 _ (length_uninit _ _ _) 0 (fun i => n8 i)]
  · rfl
  · intro i a hi hl _
    rw [wr_ok (by omega)]

theorem katMainN_ok {E : Cipher} (hE : BlockCipher E) {K : KemApi} {S : Kem} (hK : Implements K S E) (N : Nat) (hN : N ≤ 2147483646) (ctx : DRBG)
    (hw : ctx.WF) : ∃ rc rsp, katMainN E K N ctx = .ok (rc, requestFile E N, rsp) ∧
      ((∀ x ∈ seeds E N, agrees S E x) → rc = 0 ∧ rsp = responseFile S E N) ∧
      (∀ j, (hj : j < (seeds E N).length) → (∀ x ∈ (seeds E N).take j, agrees S E x) → ¬ agrees S E (seeds E N)[j] →
        rc = -4 ∧ rsp = responseFile S E (j + 1)) := by
  obtain ⟨c0, hc0, hw0, hr0, ha0⟩ := randombytes_init_ok hE entropy (by decide) none (by simp) ctx hw
  have ha : c0.abs = instantiate E entropy (List.replicate 48 0) := by
    rw [ha0, List.take_of_length_le (by decide)]; rfl
  obtain ⟨seed', c1, h1, hs1, hw1⟩ := katRequests_ok hE N hN (uninit 8 91 48) (length_uninit _ _ _) c0 hw0 hr0
  have hseeds : ∀ n, seedsFrom E c0.abs n = seeds E n := fun n => by rw [ha]; rfl
  have hlen : (seeds E N).length = N := by rw [← hseeds, length_seedsFrom]
  rw [hseeds] at h1
  have hreq : reqOf (seeds E N) 0 = requestFile E N := rfl
  obtain ⟨g1, g2⟩ := katRespond_all hE hK (seeds E N) [] (Or.inl rfl) 0 (by omega) (by rw [← hseeds]; exact mem_seedsFrom hE _ _)
    (str "# " ++ str K.ALGNAME ++ str "\n\n") ⟨none, seed', uninit 8 92 K.PUBLICKEYBYTES, uninit 8 93 K.SECRETKEYBYTES,
      uninit 8 94 K.CIPHERTEXTBYTES, uninit 8 95 32, uninit 8 96 32, c1⟩
    ⟨hs1, length_uninit _ _ _, length_uninit _ _ _, length_uninit _ _ _, length_uninit _ _ _, length_uninit _ _ _, hw1⟩
    ((reqOf (seeds E N) 0).length + 1) (by have := length_reqOf (seeds E N) 0; omega)
  rw [List.nil_append] at g1 g2
  have run : ∀ rc rsp, katRespond E K ((reqOf (seeds E N) 0).length + 1) (reqOf (seeds E N) 0) (str "# " ++ str K.ALGNAME ++ str "\n\n")
      ⟨none, seed', uninit 8 92 K.PUBLICKEYBYTES, uninit 8 93 K.SECRETKEYBYTES, uninit 8 94 K.CIPHERTEXTBYTES, uninit 8 95 32, uninit 8 96 32, c1⟩ =
        .ok (rc, rsp) → katMainN E K N ctx = .ok (rc, requestFile E N, rsp) := by
    intro rc rsp h
    unfold katMainN
    rw [entropy_ok, ok_bind, hc0, ok_bind, h1, ok_bind]
    dsimp only
    rw [h, ok_bind]
    rfl
  have hhead : str "# " ++ str K.ALGNAME ++ str "\n\n" = header S := by rw [hK.name]; rfl
  rw [hhead] at g1 g2 run
  have hfile : ∀ n, header S ++ rspOf S E (seeds E n) 0 = responseFile S E n := fun _ => rfl
  have htake : ∀ j, j < (seeds E N).length → (seeds E N).take (j + 1) = seeds E (j + 1) := fun j hj => by
    rw [← hseeds, seedsFrom_take _ _ _ _ (by omega), hseeds]
  by_cases hall : ∀ x ∈ seeds E N, agrees S E x
  · refine ⟨_, _, run _ _ (g1 hall), fun _ => ⟨rfl, hfile N⟩, fun j hj _ hf => ?_⟩
    exact absurd (hall _ (List.getElem_mem hj)) hf
  · have hex : ∃ j, ∃ hj : j < (seeds E N).length, ¬ agrees S E (seeds E N)[j] := by
      by_contra hcon
      apply hall
      intro x hx
      obtain ⟨j, hj, rfl⟩ := List.getElem_of_mem hx
      by_contra hf
      exact hcon ⟨j, hj, hf⟩
    classical
    obtain ⟨hj, hf⟩ := Nat.find_spec hex
    have hmin : ∀ i, i < Nat.find hex → ∀ hi : i < (seeds E N).length, agrees S E (seeds E N)[i] := by
      intro i hi hl
      by_contra hcon
      exact Nat.find_min hex hi ⟨hl, hcon⟩
    have hbefore : ∀ x ∈ (seeds E N).take (Nat.find hex), agrees S E x := by
      intro x hx
      obtain ⟨i, hi, rfl⟩ := List.getElem_of_mem hx
      rw [List.getElem_take]
      rw [List.length_take] at hi
      exact hmin i (by omega) (by omega)
    have h := g2 _ hj hbefore hf
    refine ⟨_, _, run _ _ h, fun h' => absurd h' hall, fun j hj' hb' hf' => ?_⟩
    have : j = Nat.find hex := by
      rcases Nat.lt_trichotomy j (Nat.find hex) with hlt | heq | hgt
      · exact absurd (hmin j hlt hj') hf'
      · exact heq
      · refine absurd (hb' _ ?_) hf
        rw [List.mem_take_iff_getElem]
        exact ⟨Nat.find hex, by omega, rfl⟩
    subst this
    exact ⟨rfl, by rw [htake _ hj, hfile]⟩

end Saber

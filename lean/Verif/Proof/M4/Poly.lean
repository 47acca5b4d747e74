import Verif.Model.M4.Poly
import Verif.Spec.M4
import Verif.Spec.M4Lib
import Verif.Proof.M4.Pack
import Verif.Proof.M4.Cbd
import Verif.Proof.M4.PolyMul
import Verif.Proof.M0.Indcpa
import Verif.Proof.Indcpa
/-!
# Cortex-M4: `poly.c`
-/
namespace Saber.M4
open Spec
open M0 (packVec_range)

/-! ### Streams -/

theorem stream_eq (M : List Byte) (n len T : Nat) (h : n + len ≤ T) :
    (Keccak.shake128 M (n + len)).drop n = ((Keccak.shake128 M T).drop n).take len := by
  rw [shake128_prefix M (n + len) T h, List.drop_take]; congr 1; omega

theorem hammingWeight_congr {n : Nat} {f g : Nat → Bool} (h : ∀ j, j < n → f j = g j) : hammingWeight n f = hammingWeight n g := by
  unfold hammingWeight
  congr 1
  exact List.map_congr_left fun j hj => by rw [h j (List.mem_range.1 hj)]

theorem centredBinomial_take (mu n : Nat) (bs : List Byte) (h : 32 * mu ≤ n) :
    centredBinomial mu (bs.take n) = centredBinomial mu bs := by
  funext i
  unfold centredBinomial
  have hi : mu * i.val + mu ≤ mu * 256 := by
    have := Nat.mul_le_mul_left mu (show i.val + 1 ≤ 256 from i.isLt)
    rw [Nat.mul_succ] at this; omega
  have e (j : Nat) (hj : j < mu * 256) : bitAt (bs.take n) j = bitAt bs j := by
    unfold bitAt
    rw [getD_take _ _ _ _ (by omega)]
  rw [hammingWeight_congr (fun j hj => e (mu * i.val + j) (by omega)),
    hammingWeight_congr (fun j hj => e (mu * i.val + mu / 2 + j) (by omega))]

/-- The entries of the public matrix, as a function on `Nat`. -/
def gA (P : PSet) (seed : List Byte) (i j : Nat) : Poly :=
  unpack 13 ((Keccak.shake128 seed (P.L * P.L * 416)).drop ((i * P.L + j) * 416))

/-- The entries of the secret vector, as a function on `Nat`. -/
def gS (P : PSet) (seed : List Byte) (i : Nat) : Poly :=
  centredBinomial P.MU ((Keccak.shake128 seed (P.L * P.MU * 32)).drop (i * P.MU * 32))

theorem COIN_eq (P : PSet) : P.POLYCOINBYTES = P.MU * 32 := by cases P <;> rfl

section
variable {lib : Fips202Lib} {St : List Byte → Nat → lib.Ctx → Prop} (hl : lib.CorrectWith St)
include hl

theorem absorb_ok (seed : List Byte) (off : Nat) (h : off + 32 ≤ seed.length) :
    Ok (shake128_absorb_seed lib seed off) (St ((seed.drop off).take 32) 0) := by
  obtain ⟨c1, c2, c3, h1, h2, h3, h4⟩ := hl.absorb seed off 32 h
  unfold shake128_absorb_seed
  rw [h1, ok_bind, show SEEDBYTES = 32 from rfl, h2, ok_bind, h3]
  exact Ok.pure h4

theorem squeeze_poly_ok (P : PSet) {seed : List Byte} {i j : Nat} (hi : i < P.L) (hj : j < P.L) {poly : List (BitVec 16)} {ctx : lib.Ctx}
    (hp : poly.length = 256) (hc : St seed ((i * P.L + j) * 416) ctx) :
    Ok (shake128_squeeze_poly lib poly ctx) fun r => r.1.length = 256 ∧ EqMod 8192 (toP r.1) (gA P seed i j) ∧
      St seed ((i * P.L + j + 1) * 416) r.2 := by
  unfold shake128_squeeze_poly
  obtain ⟨c', h1, h2⟩ := hl.squeeze seed _ ctx (uninit 8 130 POLYBYTES) 0 POLYBYTES hc (by simp)
  rw [h2, ok_bind]
  dsimp only
  have hn : (i * P.L + j) * 416 + 416 ≤ P.L * P.L * 416 := by
    have := Nat.mul_le_mul_right P.L (show i + 1 ≤ P.L from hi)
    rw [Nat.succ_mul] at this
    have := Nat.mul_le_mul_right 416 (show i * P.L + j + 1 ≤ P.L * P.L by omega)
    omega
  have e : POLYBYTES = 416 := rfl
  have hs := stream_eq seed ((i * P.L + j) * 416) 416 (P.L * P.L * 416) hn
  have hlen := length_shake128 seed ((i * P.L + j) * 416 + 416)
  have hlen2 : ((Keccak.shake128 seed ((i * P.L + j) * 416 + POLYBYTES)).drop ((i * P.L + j) * 416)).length = 416 := by
    rw [e, List.length_drop]; omega
  rw [writeAt_full _ _ (by rw [hlen2, length_uninit]; rfl)]
  refine (BS2POLq_ok _ 0 poly hp (by omega)).bind fun r ⟨g1, g2⟩ => Ok.pure ⟨g1, ?_, ?_⟩
  · rw [List.drop_zero, e, hs, unpack_take _ _ _ (by omega)] at g2
    exact g2
  · have : (i * P.L + j + 1) * 416 = (i * P.L + j) * 416 + POLYBYTES := by rw [Nat.succ_mul, e]
    rw [this]; exact h1

theorem squeeze_secret_ok (P : PSet) {seed : List Byte} {i : Nat} (hi : i < P.L) {s : List (BitVec 16)} {ctx : lib.Ctx}
    (hp : s.length = 256) (hc : St seed (i * P.MU * 32) ctx) :
    Ok (shake128_squeeze_secret P lib s ctx) fun r => r.1 = ofP (gS P seed i) ∧ St seed ((i + 1) * P.MU * 32) r.2 := by
  unfold shake128_squeeze_secret
  have e := COIN_eq P
  obtain ⟨c', h1, h2⟩ := hl.squeeze seed _ ctx (uninit 8 131 P.POLYCOINBYTES) 0 P.POLYCOINBYTES hc (by simp)
  rw [h2, ok_bind]
  dsimp only
  have hn : i * P.MU * 32 + P.MU * 32 ≤ P.L * P.MU * 32 := by
    have := Nat.mul_le_mul_right (P.MU * 32) (show i + 1 ≤ P.L from hi)
    rw [Nat.succ_mul, ← Nat.mul_assoc, ← Nat.mul_assoc] at this
    exact this
  have hs := stream_eq seed (i * P.MU * 32) (P.MU * 32) (P.L * P.MU * 32) hn
  have hlen := length_shake128 seed (i * P.MU * 32 + P.MU * 32)
  have hlen2 : ((Keccak.shake128 seed (i * P.MU * 32 + P.POLYCOINBYTES)).drop (i * P.MU * 32)).length = P.POLYCOINBYTES := by
    rw [e, List.length_drop]; omega
  rw [writeAt_full _ _ (by rw [hlen2, length_uninit]), cbd_eq, cbd_ok P s _ 0 hp (by omega), ok_bind, List.drop_zero, e, hs,
    centredBinomial_take _ _ _ (by omega)]
  refine Ok.pure ⟨rfl, ?_⟩
  have : (i + 1) * P.MU * 32 = i * P.MU * 32 + P.POLYCOINBYTES := by rw [e]; ring
  rw [this]; exact h1

theorem GenSecret_ok (P : PSet) (cs : Bool) (s : List (List (BitVec 16))) (hs : IsVec P.L s) (seed : List Byte) (off : Nat)
    (hb : off + 32 ≤ seed.length) :
    M4.GenSecret P lib cs s seed off 0 = .ok (ofV (genSecret P.spec ((seed.drop off).take 32)), seed) := by
  have hc := COIN_eq P
  have hlen : P.L * P.POLYCOINBYTES = P.L * P.MU * 32 := by cases P <;> rfl
  unfold M4.GenSecret
  rw [hl.shake128 _ _ _ _ _ _ (by simp) hb, ok_bind, writeAt_full _ _ (by simp [length_shake128]), hlen]
  have hl := length_shake128 ((seed.drop off).take 32) (P.L * P.MU * 32)
  have eG : genSecret P.spec ((seed.drop off).take 32) = fun i : Fin P.L =>
    centredBinomial P.MU ((Keccak.shake128 ((seed.drop off).take 32) (P.L * P.MU * 32)).drop (i.val * P.MU * 32)) := rfl
  rw [eG]
  generalize Keccak.shake128 ((seed.drop off).take 32) (P.L * P.MU * 32) = buf at *
  rw [loop_rows P.L s hs.1 [] (fun i => ofP (centredBinomial P.MU (buf.drop (i * P.MU * 32))))]
  · rw [ok_bind, if_neg (by decide), ← finRange_map_val]; rfl
  · intro i a' hi ha hr
    have hb : i * P.POLYCOINBYTES + P.POLYCOINBYTES ≤ buf.length := by
      rw [hl, hc, Nat.mul_assoc, ← Nat.succ_mul]
      exact Nat.mul_le_mul_right _ hi
    rw [rd_ok [] (by omega), ok_bind, hr, cbd_eq, cbd_ok P _ _ _ (hs.2 i hi) hb, ok_bind, wr_ok (by omega), hc, Nat.mul_assoc]

end

/-! ### Products -/

theorem mulAcc_ok {toom : Toom} (ht : ToomOk toom) (first : Bool) {s A r : List (BitVec 16)} (hs : s.length = 256) (hA : A.length = 256)
    (hr : r.length = 256) : Ok (mulAcc toom first s A r) fun o => o.1.length = 256 ∧ o.2.length = 256 ∧
      EqMod 8192 (toP o.2) (fun k => (if first then 0 else toP r k) + negMul (toP s) (toP A) k) := by
  unfold mulAcc poly_mul poly_mul_acc
  cases first
  · exact ht s A r hs hA hr
  · rw [if_pos rfl, memset_ok _ _ _ _ (by rw [hr]; simp), ok_bind, writeAt_full _ _ (by simp [hr])]
    refine (ht s A _ hs hA (by simp)).mono fun o h => ⟨h.1, h.2.1, fun k => ?_⟩
    have := h.2.2 k
    rw [toP_zero] at this
    exact this

/-- Accumulation of `n` products; the first one overwrites. -/
def acc (f : Nat → Poly) (n : Nat) : Poly := fun k => ∑ i ∈ Finset.range n, f i k

theorem acc_step {m : Int} {f : Nat → Poly} {n : Nat} {r r' q : Poly} (h : 0 < n → EqMod m r (acc f n))
    (h' : EqMod m r' (fun k => (if (n == 0) = true then 0 else r k) + q k)) (hq : EqMod m q (f n)) :
    EqMod m r' (acc f (n + 1)) := by
  intro k
  have a := h' k
  have b := hq k
  beta_reduce at a
  rw [a]
  unfold acc
  rw [Finset.sum_range_succ]
  cases n with
  | zero =>
    rw [Finset.sum_range_zero]
    simpa using b
  | succ n =>
    have c := h (by omega) k
    unfold acc at c
    rw [if_neg (by simp), Int.add_emod, c, b, ← Int.add_emod]

theorem negMul_congr' {m : Nat} {a a' b b' : Poly} (ha : EqMod m a a') (hb : EqMod m b b') : EqMod m (negMul a b) (negMul b' a') := by
  rw [negMul_comm b']
  exact negMul_congr ha hb

/-! ### Key generation -/

/-- The bytes of a secret polynomial. -/
def packMu (cs : Bool) (p : Poly) : List Byte := if cs then pack 4 p else pack 13 p

theorem length_packMu (cs : Bool) (p : Poly) : (packMu cs p).length = POLYSECRETBYTES cs := by
  cases cs
  · exact length_pack _ _
  · exact length_pack _ _

theorem POLmu2BS_ok (cs : Bool) (bytes : List Byte) (off : Nat) (data : List (BitVec 16)) (hd : data.length = 256)
    (hb : off + POLYSECRETBYTES cs ≤ bytes.length) : POLmu2BS cs bytes off data = .ok (writeAt bytes off (packMu cs (toP data))) := by
  cases cs
  · exact POLq2BS_ok bytes off data hd hb
  · exact POLmu2BS_c_ok bytes off data hd hb

theorem packMu_ofP (cs : Bool) (p : Poly) : packMu cs (toP (ofP p)) = packMu cs p := by
  cases cs
  · exact pack_congr (by omega) (toP_ofP_mod _ _ (by decide))
  · exact pack_congr (by omega) (toP_ofP_mod _ _ (by decide))

theorem writeAt_snoc {α : Type} (a : List α) (f : Nat → List α) (w i : Nat) (hw : ∀ i, (f i).length = w) (h : (i + 1) * w ≤ a.length) (off : Nat)
    (ho : off = i * w) : writeAt (writeAt a 0 ((List.range i).flatMap f)) off (f i) = writeAt a 0 ((List.range (i + 1)).flatMap f) := by
  have hl := length_flatMap_range w f hw i
  rw [Nat.mul_comm] at hl
  rw [Nat.succ_mul] at h
  rw [List.range_succ, List.flatMap_append, List.flatMap_singleton]
  exact writeAt_after _ _ _ _ _ (by omega) (by rw [hl, hw]; omega)

variable {P : PSet} {lib : Fips202Lib} {St : List Byte → Nat → lib.Ctx → Prop} {toom : Toom} {cs : Bool}

/-- Invariant of the loops of `MatrixVectorMulKeyPair` after `i` rows and `j` products of the next row. -/
structure KPInv (P : PSet) (St : List Byte → Nat → lib.Ctx → Prop) (seedA seedS : List Byte) (i j : Nat) (st : KP lib.Ctx) : Prop where
  lA : st.A.length = 256
  lb : IsVec P.L st.b
  done : ∀ t, t < j → EqMod 8192 (toP (st.b.getD t [])) (acc (fun i => negMul (gA P seedA i t) (gS P seedS i)) (i + 1))
  todo : 0 < i → ∀ t, j ≤ t → t < P.L → EqMod 8192 (toP (st.b.getD t [])) (acc (fun i => negMul (gA P seedA i t) (gS P seedS i)) i)
  cA : St seedA ((i * P.L + j) * 416) st.cA

theorem kpInner_ok (hl : lib.CorrectWith St) (ht : ToomOk toom) {seedA seedS : List Byte} {i j : Nat} (hi : i < P.L) (hj : j < P.L)
    {st : KP lib.Ctx} (hs : st.s = ofP (gS P seedS i)) (h : KPInv P St seedA seedS i j st) :
    Ok (kpInner lib toom i j st) fun st' => KPInv P St seedA seedS i (j + 1) st' ∧ st'.sk = st.sk ∧ st'.s = st.s ∧ st'.cS = st.cS := by
  unfold kpInner
  refine (squeeze_poly_ok hl P hi hj h.lA h.cA).bind fun r ⟨a1, a2, a3⟩ => ?_
  obtain ⟨A, cA⟩ := r
  dsimp only at a1 a2 a3 ⊢
  have l1 := h.lb.1
  rw [rd_ok [] (by omega), ok_bind]
  refine (mulAcc_ok ht (i == 0) (by rw [hs]; simp) a1 (h.lb.2 j hj)).bind fun o ⟨b1, b2, b3⟩ => ?_
  obtain ⟨A', bj⟩ := o
  dsimp only at b1 b2 b3 ⊢
  rw [wr_ok (by omega), ok_bind]
  refine Ok.pure ⟨⟨b1, ⟨by simp only [List.length_set]; exact l1, fun t ht => ?_⟩, fun t htj => ?_, fun hi0 t htj htL => ?_, a3⟩, rfl, rfl, rfl⟩
  · dsimp only
    rw [getD_set]; split
    · exact b2
    · exact h.lb.2 t ht
  · dsimp only
    rw [getD_set]
    by_cases e : j = t
    · subst e
      rw [if_pos ⟨rfl, by omega⟩]
      refine acc_step (fun h0 => h.todo h0 j (by omega) hj) b3 ?_
      refine negMul_congr' (m := 8192) ?_ a2
      rw [hs]; exact toP_ofP_mod _ _ (by decide)
    · rw [if_neg (by tauto)]
      exact h.done t (by omega)
  · dsimp only
    rw [getD_set, if_neg (by omega)]
    exact h.todo hi0 t (by omega) htL

theorem kpOuter_ok (hl : lib.CorrectWith St) (ht : ToomOk toom) {seedA seedS sk0 : List Byte} {i : Nat} (hi : i < P.L)
    (hsk : P.L * POLYSECRETBYTES cs ≤ sk0.length) {st : KP lib.Ctx} (hs : st.s.length = 256) (h : KPInv P St seedA seedS i 0 st)
    (hcS : St seedS (i * P.MU * 32) st.cS)
    (hk : st.sk = writeAt sk0 0 ((List.range i).flatMap fun i => packMu cs (gS P seedS i))) :
    Ok (kpOuter P lib toom cs i st) fun st' => KPInv P St seedA seedS (i + 1) 0 st' ∧ st'.s.length = 256 ∧
      St seedS ((i + 1) * P.MU * 32) st'.cS ∧
      st'.sk = writeAt sk0 0 ((List.range (i + 1)).flatMap fun i => packMu cs (gS P seedS i)) := by
  unfold kpOuter
  refine (squeeze_secret_ok hl P hi hs hcS).bind fun r ⟨a1, a2⟩ => ?_
  obtain ⟨s, cS⟩ := r
  dsimp only at a1 a2 ⊢
  have hw : ∀ i, (packMu cs (gS P seedS i)).length = POLYSECRETBYTES cs := fun _ => length_packMu _ _
  have hfl := length_flatMap_range _ _ hw i
  rw [Nat.mul_comm] at hfl
  have hle := Nat.mul_le_mul_right (POLYSECRETBYTES cs) (show i + 1 ≤ P.L from hi)
  have hle' := hle
  rw [Nat.succ_mul] at hle'
  rw [POLmu2BS_ok cs _ _ s (by rw [a1]; simp) (by rw [hk, length_writeAt _ _ _ (by omega)]; omega), ok_bind, hk, a1, packMu_ofP,
    writeAt_snoc _ _ _ _ hw (by omega) _ rfl]
  refine (loop_inv (fun j (st' : KP lib.Ctx) => KPInv P St seedA seedS i j st' ∧
    st'.sk = writeAt sk0 0 ((List.range (i + 1)).flatMap fun i => packMu cs (gS P seedS i)) ∧ st'.s = ofP (gS P seedS i) ∧ st'.cS = cS)
    ?_ ?_).mono ?_
  · exact ⟨⟨h.lA, h.lb, h.done, h.todo, h.cA⟩, rfl, rfl, rfl⟩
  · rintro j st' hj ⟨q1, q2, q3, q4⟩
    exact (kpInner_ok hl ht hi hj q3 q1).mono fun st'' ⟨w1, w2, w3, w4⟩ => ⟨w1, w2.trans q2, w3.trans q3, w4.trans q4⟩
  · rintro st' ⟨q1, q2, q3, q4⟩
    refine ⟨⟨q1.lA, q1.lb, fun t ht => by omega, fun _ t _ htL => q1.done t htL, ?_⟩, by rw [q3]; simp, by rw [q4]; exact a2, q2⟩
    have := q1.cA
    rw [show (i + 1) * P.L + 0 = i * P.L + P.L by ring]
    exact this

theorem roundPoly_ok (row : List (BitVec 16)) (hl : row.length = 256) :
    Ok (roundPoly row) fun r => r.length = 256 ∧ ∀ k, toP r k = (toP row k + 4) / 8 := roundRow_ok row hl

theorem acc_matVec (seedA seedS : List Byte) (t : Fin P.L) :
    acc (fun i => negMul (gA P seedA i t) (gS P seedS i)) P.L = matVec (transpose (genMatrix P.spec seedA)) (genSecret P.spec seedS) t := by
  funext k
  unfold acc matVec
  rw [Finset.sum_range]
  rfl

theorem acc_matVec' (seedA seedS : List Byte) (t : Fin P.L) :
    acc (fun j => negMul (gA P seedA t j) (gS P seedS j)) P.L = matVec (genMatrix P.spec seedA) (genSecret P.spec seedS) t := by
  funext k
  unfold acc matVec
  rw [Finset.sum_range]
  rfl

/-- The rounded public vector. -/
theorem packRound {r row : List (BitVec 16)} {x : Poly} (h : ∀ k, toP r k = (toP row k + 4) / 8) (hx : EqMod 8192 (toP row) x) :
    pack 10 (toP r) = pack 10 (roundP x) := by
  apply pack_congr (by omega)
  rw [show toP r = fun k => (toP row k + 4) / 8 from funext h]
  exact roundP_congr hx

theorem packMu_vec (cs : Bool) (v : Nat → Poly) (L : Nat) : ((List.range L).flatMap fun i => packMu cs (v i)) =
    if cs then packVec 4 (fun i : Fin L => v i.val) else packVec 13 (fun i : Fin L => v i.val) := by
  cases cs
  · exact (packVec_range 13 L v).symm
  · exact (packVec_range 4 L v).symm

/-- The secret key bytes of key generation. -/
def skBytes (P : PSet) (cs : Bool) (seedS : List Byte) : List Byte := if cs then pkeKeyGenSkC P.spec seedS else pkeKeyGenSk P.spec seedS

theorem length_skBytes (P : PSet) (cs : Bool) (seedS : List Byte) : (skBytes P cs seedS).length = INDCPA_SECRETKEYBYTES P cs := by
  cases cs
  · exact length_packVec _ _ _
  · exact length_packVec _ _ _

theorem MatrixVectorMulKeyPair_ok (hl : lib.CorrectWith St) (ht : ToomOk toom) (pk sk : List Byte) (hpk : pk.length = P.L * 320 + 32)
    (hsk : INDCPA_SECRETKEYBYTES P cs ≤ sk.length) (hsk' : 32 ≤ sk.length) :
    MatrixVectorMulKeyPair P lib toom cs pk sk = .ok (pkeKeyGenPk P.spec (pk.drop (P.L * 320)) (sk.take 32),
      writeAt sk 0 (skBytes P cs (sk.take 32))) := by
  apply M0.eq_of_Ok
  unfold MatrixVectorMulKeyPair
  have e1 : P.POLYVECCOMPRESSEDBYTES = P.L * 320 := rfl
  rw [e1]
  refine (absorb_ok hl pk (P.L * 320) (by omega)).bind fun cA h1 => ?_
  refine (absorb_ok hl sk 0 (by omega)).bind fun cS h2 => ?_
  rw [List.drop_zero] at h2
  rw [List.take_of_length_le (by rw [List.length_drop]; omega)] at h1
  generalize hA : pk.drop (P.L * 320) = seedA at h1 ⊢
  generalize hS : sk.take 32 = seedS at h2 ⊢
  refine Ok.bind (loop_inv (fun i (st : KP lib.Ctx) => KPInv P St seedA seedS i 0 st ∧ st.s.length = 256 ∧
    St seedS (i * P.MU * 32) st.cS ∧ st.sk = writeAt sk 0 ((List.range i).flatMap fun i => packMu cs (gS P seedS i)))
    ⟨⟨length_uninit _ _ _, isVec_uninitVec _ _, fun t ht => by omega, fun h => by omega, by simpa using h1⟩, length_uninit _ _ _,
      by simpa using h2, by simp⟩ ?_) ?_
  · rintro i st hi ⟨q1, q2, q3, q4⟩
    exact kpOuter_ok hl ht hi hsk q2 q1 q3 q4
  rintro st ⟨q1, q2, q3, q4⟩
  have q1t := q1.todo (by cases P <;> decide)
  have hfv (i : Nat) (hi : i < P.L) := q1t i (by omega) hi
  let f : Nat → List Byte := fun i => if hi : i < P.L then
    pack 10 (roundP (matVec (transpose (genMatrix P.spec seedA)) (genSecret P.spec seedS) ⟨i, hi⟩)) else List.replicate 320 0
  have hw : ∀ i, (f i).length = 320 := by
    intro i
    simp only [f]
    split
    · exact length_pack _ _
    · exact List.length_replicate
  refine Ok.bind (loop_inv (fun i (r : List Byte × List (List (BitVec 16))) => r.1 = writeAt pk 0 ((List.range i).flatMap f) ∧ IsVec P.L r.2 ∧
    ∀ t, i ≤ t → t < P.L → r.2.getD t [] = st.b.getD t []) ⟨by simp, q1.lb, fun _ _ _ => rfl⟩ ?_) ?_
  · rintro i ⟨pk', b⟩ hi ⟨p1, p2, p3⟩
    dsimp only at p1 p2 p3 ⊢
    have l2 := p2.1
    rw [rd_ok [] (by omega), ok_bind]
    refine (roundPoly_ok _ (p2.2 i hi)).bind fun bi ⟨u1, u2⟩ => ?_
    have hfl := length_flatMap_range 320 _ hw i
    have hle := Nat.mul_le_mul_right 320 (show i + 1 ≤ P.L from hi)
    rw [wr_ok (by omega), ok_bind, show POLYCOMPRESSEDBYTES = 320 from rfl,
      POLp2BS_ok _ _ _ u1 (by rw [p1, length_writeAt _ _ _ (by omega)]; omega), ok_bind]
    have efi : pack 10 (toP bi) = f i := by
      simp only [f]
      rw [dif_pos hi]
      refine packRound u2 ?_
      rw [p3 i (by omega) hi]
      have := hfv i hi
      rw [acc_matVec seedA seedS ⟨i, hi⟩] at this
      exact this
    refine Ok.pure ⟨?_, ⟨by simp only [List.length_set]; exact l2, fun t ht => ?_⟩, fun t h1 h2 => ?_⟩
    · dsimp only
      rw [efi, p1, writeAt_snoc _ _ _ _ hw (by omega) _ rfl]
    · dsimp only
      rw [getD_set]; split
      · exact u1
      · exact p2.2 t ht
    · dsimp only
      rw [getD_set, if_neg (by omega), p3 t (by omega) h2]
  · rintro ⟨pk', b⟩ ⟨p1, _, _⟩
    dsimp only at p1 ⊢
    refine Ok.pure ?_
    have ef : (List.range P.L).flatMap f = packVec 10 (pubVec P.spec seedA seedS) := by
      rw [← finRange_flatMap_val P.L f]
      unfold packVec
      rw [List.flatMap_def, List.flatMap_def]
      congr 1
      apply List.map_congr_left
      intro i _
      simp only [f]
      rw [dif_pos i.isLt]; rfl
    have eg : ((List.range P.L).flatMap fun i => packMu cs (gS P seedS i)) = skBytes P cs seedS := by
      rw [packMu_vec]; rfl
    rw [p1, ef, q4, eg, writeAt_prefix, length_packVec, show P.L * (32 * 10) = P.L * 320 from rfl, hA]
    rfl

end Saber.M4

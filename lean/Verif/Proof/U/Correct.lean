import Verif.Proof.U.Kem
import Verif.Proof.Correct
/-!
# Correctness of uSaber and Saber-90s
-/
namespace Saber.U
open Spec

theorem eq_cases (f : Cfg) : (f.EQ = 12 ∧ USpec.h1 f.EQ = 2) ∨ (f.EQ = 13 ∧ USpec.h1 f.EQ = 4) := by
  rcases h1_cases f with ⟨e, -, h⟩ | ⟨e, -, h⟩
  · exact .inl ⟨e, h⟩
  · exact .inr ⟨e, h⟩

theorem roundP_spec (f : Cfg) (x : Poly) (k : Fin 256) :
    (2 ^ (f.EQ - 10) * USpec.roundP f.EQ x k - (x k + USpec.roundErr f.EQ x k)) % 2 ^ f.EQ = 0 := by
  unfold USpec.roundP USpec.roundErr
  rcases eq_cases f with ⟨e, h⟩ | ⟨e, h⟩ <;> rw [h, e] <;> norm_num <;> omega

theorem roundP_range (f : Cfg) (x : Poly) (k : Fin 256) : 0 ≤ USpec.roundP f.EQ x k ∧ USpec.roundP f.EQ x k < 1024 := by
  unfold USpec.roundP
  rcases eq_cases f with ⟨e, h⟩ | ⟨e, h⟩ <;> rw [e] <;> norm_num <;> omega

/-- The two sides' values differ by the combination of the rounding errors with the secrets. -/
theorem value_difference (f : Cfg) {l : Nat} (A : PMat l) (s s' : PVec l) (k : Fin 256) :
    (2 ^ (f.EQ - 10) * innerProd (fun i => USpec.roundP f.EQ (matVec A s' i)) s k
      - 2 ^ (f.EQ - 10) * innerProd (fun i => USpec.roundP f.EQ (matVec (transpose A) s i)) s' k) % 2 ^ f.EQ
    = (innerProd (fun i => USpec.roundErr f.EQ (matVec A s' i)) s k
      - innerProd (fun i => USpec.roundErr f.EQ (matVec (transpose A) s i)) s' k) % 2 ^ f.EQ := by
  have key : ∀ (x s : PVec l), (2 ^ (f.EQ - 10) * innerProd (fun i => USpec.roundP f.EQ (x i)) s k) % 2 ^ f.EQ =
      (innerProd x s k + innerProd (fun i => USpec.roundErr f.EQ (x i)) s k) % 2 ^ f.EQ := by
    intro x s
    rw [← innerProd_mul_left, ← innerProd_add_left]
    have : EqMod (2 ^ f.EQ : Nat) (innerProd (fun j i => 2 ^ (f.EQ - 10) * USpec.roundP f.EQ (x j) i) s)
        (innerProd (fun j i => x j i + USpec.roundErr f.EQ (x j) i) s) := by
      apply innerProd_congr
      · intro j i
        have := roundP_spec f (x j) i
        beta_reduce
        push_cast
        exact Int.emod_eq_emod_iff_emod_sub_eq_zero.2 this
      · intro j; exact EqMod.refl _ _
    have := this k
    push_cast at this
    exact this
  have h1 := key (matVec A s') s
  have h2 := key (matVec (transpose A) s) s'
  have h3 : innerProd (matVec (transpose A) s) s' k = innerProd (matVec A s') s k := by rw [innerProd_adjoint]
  beta_reduce at h1 h2
  rcases eq_cases f with ⟨e, -⟩ | ⟨e, -⟩ <;> rw [e] at h1 h2 ⊢ <;> norm_num at h1 h2 ⊢ <;> omega

/-- Decoding, coefficient by coefficient.  `v` is the decryptor's value, `v'` the encryptor's. -/
theorem decode_iff (f : Cfg) (v v' m cm : Poly) (k : Fin 256) (hm : m k = 0 ∨ m k = 1)
    (hc : cm k = USpec.encodeMsg f.EQ f.P.ET v' m k) :
    USpec.decodeMsg f.EQ f.P.ET v cm k = m k ↔
      (2 ^ (f.EQ - 10) * v k - 2 ^ (f.EQ - 10) * v' k + 2 ^ (f.EQ - 10) * USpec.cutErr f.EQ f.P.ET v' k + 2 ^ (f.EQ - 2)) % 2 ^ f.EQ
        < 2 ^ (f.EQ - 1) := by
  unfold USpec.decodeMsg
  rw [hc]
  unfold USpec.encodeMsg USpec.cutErr USpec.h2 USpec.h1
  obtain ⟨P, u, s⟩ := f
  cases u <;> cases P <;> rcases hm with h | h <;> rw [h] <;> simp [Cfg.EQ, PSet.ET] <;> omega

theorem decode_bit (f : Cfg) (v cm : Poly) (k : Fin 256) :
    USpec.decodeMsg f.EQ f.P.ET v cm k = 0 ∨ USpec.decodeMsg f.EQ f.P.ET v cm k = 1 := by
  unfold USpec.decodeMsg
  omega

theorem encode_range (f : Cfg) (v m : Poly) (k : Fin 256) :
    0 ≤ USpec.encodeMsg f.EQ f.P.ET v m k ∧ USpec.encodeMsg f.EQ f.P.ET v m k < 2 ^ f.P.ET := by
  unfold USpec.encodeMsg
  cases f.P <;> simp [PSet.ET] <;> omega

/-- Decryption of an honest encryption, bit by bit. -/
theorem pke_bit_iff (f : Cfg) (seedA seedS m seedS' : List Byte) (k : Fin 256) :
    unpack 1 (USpec.pkeDec f.spec (USpec.pkeKeyGenSk f.spec seedS) (USpec.pkeEnc f.spec m seedS' (USpec.pkeKeyGenPk f.spec seedA seedS))) k = unpack 1 m k ↔
      USpec.NoiseOk f.EQ (USpec.noise f.EQ f.P.ET (USpec.genMatrix f.spec seedA) (USpec.genSecret f.spec seedS) (USpec.genSecret f.spec seedS')) k := by
  unfold USpec.pkeDec
  dsimp only
  rw [← List.append_nil (pack 1 _), unpack_pack]
  generalize hpk : USpec.pkeKeyGenPk f.spec seedA seedS = pk
  have hA : pk.drop (f.P.L * 320) = seedA := by
    rw [← hpk, USpec.pkeKeyGenPk, List.drop_append, List.drop_of_length_le (by rw [length_packVec])]
    rw [length_packVec, Nat.sub_self]; rfl
  have hb : ∀ i, unpackVec 10 f.P.L pk i = USpec.roundP f.EQ (matVec (transpose (USpec.genMatrix f.spec seedA)) (USpec.genSecret f.spec seedS) i) := by
    intro i
    funext n
    rw [← hpk, USpec.pkeKeyGenPk, unpackVec_packVec]
    have := roundP_range f (matVec (transpose (USpec.genMatrix f.spec seedA)) (USpec.genSecret f.spec seedS) i) n
    exact Int.emod_eq_of_lt this.1 this.2
  unfold USpec.pkeEnc
  dsimp only
  simp only [EQ_spec]
  rw [hA]
  have hb' : (fun i => unpackVec 10 f.P.L pk i) = fun i => USpec.roundP f.EQ (matVec (transpose (USpec.genMatrix f.spec seedA)) (USpec.genSecret f.spec seedS) i) := funext hb
  change unpackVec 10 f.P.L pk = _ at hb'
  rw [hb']
  generalize hA' : USpec.genMatrix f.spec seedA = A
  generalize hs : USpec.genSecret f.spec seedS = s
  generalize hs' : USpec.genSecret f.spec seedS' = s'
  generalize hm : unpack 1 m = mp
  have hmk : mp k = 0 ∨ mp k = 1 := by rw [← hm]; exact unpack_bit m k
  -- the ciphertext components
  have hc1 : unpackVec 10 f.P.L (packVec 10 (fun i => USpec.roundP f.EQ (matVec A s' i)) ++
      pack f.P.ET (USpec.encodeMsg f.EQ f.P.ET (innerProd (fun i => USpec.roundP f.EQ (matVec (transpose A) s i)) s') mp)) = fun i => USpec.roundP f.EQ (matVec A s' i) := by
    funext i n
    rw [unpackVec_packVec]
    have := roundP_range f (matVec A s' i) n
    exact Int.emod_eq_of_lt this.1 this.2
  have hc2 : ∀ n, unpack f.P.ET ((packVec 10 (fun i => USpec.roundP f.EQ (matVec A s' i)) ++
      pack f.P.ET (USpec.encodeMsg f.EQ f.P.ET (innerProd (fun i => USpec.roundP f.EQ (matVec (transpose A) s i)) s') mp)).drop (f.P.L * 320)) n =
        USpec.encodeMsg f.EQ f.P.ET (innerProd (fun i => USpec.roundP f.EQ (matVec (transpose A) s i)) s') mp n := by
    intro n
    rw [List.drop_append, List.drop_of_length_le (by rw [length_packVec]), length_packVec, Nat.sub_self, List.drop_zero, List.nil_append,
      ← List.append_nil (pack _ _), unpack_pack]
    have := encode_range f (innerProd (fun i => USpec.roundP f.EQ (matVec (transpose A) s i)) s') mp n
    exact Int.emod_eq_of_lt this.1 this.2
  rw [hc1]
  have hsk : ∀ i, EqMod (1024 : Nat) (unpackVec f.EQ f.P.L (USpec.pkeKeyGenSk f.spec seedS) i) (s i) := by
    intro i n
    rw [USpec.pkeKeyGenSk, EQ_spec, ← List.append_nil (packVec _ _), hs]
    have := unpackVec_packVec f.EQ s [] i n
    change unpackVec f.EQ f.P.L _ i n = _ at this
    rw [this]
    rcases eq_cases f with ⟨e, -⟩ | ⟨e, -⟩ <;> rw [e] <;> push_cast <;> norm_num <;> omega
  have hv : EqMod (1024 : Nat) (innerProd (fun i => USpec.roundP f.EQ (matVec A s' i)) (unpackVec f.EQ f.P.L (USpec.pkeKeyGenSk f.spec seedS)))
      (innerProd (fun i => USpec.roundP f.EQ (matVec A s' i)) s) := innerProd_congr (fun _ => EqMod.refl _ _) hsk
  rw [show (USpec.decodeMsg f.EQ f.P.ET (innerProd (fun i => USpec.roundP f.EQ (matVec A s' i)) (unpackVec f.EQ f.P.L (USpec.pkeKeyGenSk f.spec seedS))) _ k) % 2 ^ 1 =
    USpec.decodeMsg f.EQ f.P.ET (innerProd (fun i => USpec.roundP f.EQ (matVec A s' i)) (unpackVec f.EQ f.P.L (USpec.pkeKeyGenSk f.spec seedS))) _ k from by
      rcases decode_bit f (innerProd (fun i => USpec.roundP f.EQ (matVec A s' i)) (unpackVec f.EQ f.P.L (USpec.pkeKeyGenSk f.spec seedS))) _ k with h | h <;>
        rw [h] <;> rfl]
  rw [decode_iff f _ (innerProd (fun i => USpec.roundP f.EQ (matVec (transpose A) s i)) s') mp _ k hmk (hc2 k)]
  unfold USpec.NoiseOk USpec.noise
  have h1 := value_difference f A s s' k
  have h2 := hv k
  generalize innerProd (fun i => USpec.roundP f.EQ (matVec A s' i)) (unpackVec f.EQ f.P.L (USpec.pkeKeyGenSk f.spec seedS)) k = v0 at *
  generalize innerProd (fun i => USpec.roundP f.EQ (matVec A s' i)) s k = v at *
  generalize USpec.cutErr f.EQ f.P.ET (innerProd (fun i => USpec.roundP f.EQ (matVec (transpose A) s i)) s') k = c at *
  generalize innerProd (fun i => USpec.roundP f.EQ (matVec (transpose A) s i)) s' k = v' at *
  generalize innerProd (fun i => USpec.roundErr f.EQ (matVec A s' i)) s k = a at *
  generalize innerProd (fun i => USpec.roundErr f.EQ (matVec (transpose A) s i)) s' k = b at *
  clear hb hb' hc1 hc2 hsk hv hmk hA
  push_cast at h2
  rcases eq_cases f with ⟨e, -⟩ | ⟨e, -⟩ <;> rw [e] at h1 ⊢ <;> norm_num at h1 h2 ⊢ <;> constructor <;> intro h <;> omega

/-- Decryption returns the message if and only if the noise is in range everywhere. -/
theorem pke_correct_iff (f : Cfg) (seedA seedS m seedS' : List Byte) (hm : m.length = 32) :
    USpec.pkeDec f.spec (USpec.pkeKeyGenSk f.spec seedS) (USpec.pkeEnc f.spec m seedS' (USpec.pkeKeyGenPk f.spec seedA seedS)) = m ↔
      ∀ k, USpec.NoiseOk f.EQ (USpec.noise f.EQ f.P.ET (USpec.genMatrix f.spec seedA) (USpec.genSecret f.spec seedS) (USpec.genSecret f.spec seedS')) k := by
  constructor
  · intro h k
    rw [← pke_bit_iff f seedA seedS m seedS' k, h]
  · intro h
    exact bytes_eq_of_unpack (length_pkeDec _ _ _) hm fun k => (pke_bit_iff f seedA seedS m seedS' k).2 (h k)

/-! ### The KEM -/

theorem skCpa_kemSk (f : Cfg) (r1 r2 z : List Byte) : USpec.skCpa f.spec (USpec.kemSk f.spec r1 r2 z) = USpec.pkeKeyGenSk f.spec r2 := by
  have l := length_pkeKeyGenSk f r2
  unfold USpec.skCpa USpec.kemSk
  dsimp only
  simp only [EQ_spec]
  rw [List.append_assoc, List.append_assoc, List.take_append_of_le_length (by omega), List.take_of_length_le (by omega)]

theorem skPk_kemSk (f : Cfg) (r1 r2 z : List Byte) (hr : r1.length = 32) : USpec.skPk f.spec (USpec.kemSk f.spec r1 r2 z) = USpec.kemPk f.spec r1 r2 := by
  have l := length_pkeKeyGenSk f r2
  have l2 := length_kemPk f r1 r2 hr
  unfold USpec.skPk USpec.kemSk
  dsimp only
  simp only [EQ_spec]
  rw [List.append_assoc, List.append_assoc, List.drop_append, List.drop_of_length_le (by omega), l, Nat.sub_self, List.drop_zero, List.nil_append,
    List.take_append_of_le_length (by omega), List.take_of_length_le (by omega)]

theorem skHpk_kemSk (f : Cfg) (r1 r2 z : List Byte) (hr : r1.length = 32) : USpec.skHpk f.spec (USpec.kemSk f.spec r1 r2 z) = f.sym.H (USpec.kemPk f.spec r1 r2) := by
  have l := length_pkeKeyGenSk f r2
  have l2 := length_kemPk f r1 r2 hr
  have l3 : (USpec.pkeKeyGenSk f.spec r2 ++ USpec.kemPk f.spec r1 r2).length = f.P.L * (32 * f.EQ) + (f.P.L * 320 + 32) := by rw [List.length_append]; omega
  have l4 := length_H f (USpec.kemPk f.spec r1 r2)
  unfold USpec.skHpk USpec.kemSk
  dsimp only
  simp only [EQ_spec]
  rw [List.append_assoc, List.drop_append, List.drop_of_length_le (by omega), l3, Nat.sub_self, List.drop_zero, List.nil_append,
    List.take_append_of_le_length (by omega), List.take_of_length_le (by omega)]

theorem skZ_kemSk (f : Cfg) (r1 r2 z : List Byte) (hr : r1.length = 32) (hz : z.length = 32) : USpec.skZ f.spec (USpec.kemSk f.spec r1 r2 z) = z := by
  have l := length_pkeKeyGenSk f r2
  have l2 := length_kemPk f r1 r2 hr
  have l4 := length_H f (USpec.kemPk f.spec r1 r2)
  have l3 : (USpec.pkeKeyGenSk f.spec r2 ++ USpec.kemPk f.spec r1 r2 ++ f.sym.H (USpec.kemPk f.spec r1 r2)).length = f.P.L * (32 * f.EQ) + (f.P.L * 320 + 32) + 32 := by
    rw [List.length_append, List.length_append]; omega
  unfold USpec.skZ USpec.kemSk
  dsimp only
  simp only [EQ_spec]
  rw [List.drop_append, List.drop_of_length_le (by omega), l3, Nat.sub_self, List.drop_zero, List.nil_append, List.take_of_length_le (by omega)]

theorem kem_agree (f : Cfg) (r1 r2 z m0 : List Byte) (hr : r1.length = 32)
    (h : ∀ k, USpec.NoiseOk f.EQ (USpec.noise f.EQ f.P.ET (USpec.genMatrix f.spec (f.sym.prf r1 32)) (USpec.genSecret f.spec r2)
      (USpec.genSecret f.spec (USpec.encapsCoins f.spec m0 (USpec.kemPk f.spec r1 r2)))) k) :
    USpec.decaps f.spec (USpec.kemSk f.spec r1 r2 z) (USpec.encapsC f.spec m0 (USpec.kemPk f.spec r1 r2)) = USpec.encapsK f.spec m0 (USpec.kemPk f.spec r1 r2) := by
  have hm : USpec.decapsM f.spec (USpec.kemSk f.spec r1 r2 z) (USpec.encapsC f.spec m0 (USpec.kemPk f.spec r1 r2)) = f.sym.H m0 := by
    unfold USpec.decapsM
    rw [skCpa_kemSk f]
    exact (pke_correct_iff f (f.sym.prf r1 32) r2 (f.sym.H m0) _ (length_H f _)).2 h
  have hk : USpec.decapsKr f.spec (USpec.kemSk f.spec r1 r2 z) (USpec.encapsC f.spec m0 (USpec.kemPk f.spec r1 r2)) = USpec.kemKr f.spec (f.sym.H m0) (f.sym.H (USpec.kemPk f.spec r1 r2)) := by
    unfold USpec.decapsKr
    rw [hm, skHpk_kemSk f _ _ _ hr]
  unfold USpec.decaps
  have hr : USpec.encapsC f.spec m0 (USpec.kemPk f.spec r1 r2) = USpec.reEncrypt f.spec (USpec.kemSk f.spec r1 r2 z) (USpec.encapsC f.spec m0 (USpec.kemPk f.spec r1 r2)) := by
    unfold USpec.reEncrypt
    rw [hm, hk, skPk_kemSk f _ _ _ hr]; rfl
  rw [if_pos hr, hk]
  rfl

end Saber.U

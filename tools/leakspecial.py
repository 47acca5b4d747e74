SE={'Ref':{},'U':{},'M0':{}}
SC={'Ref':{},'U':{},'M0':{}}
SE['Ref']['KeccakF1600_StatePermute']='''theorem E_KeccakF1600_StatePermute (state : List (BitVec 64)) : E (Leak.KeccakF1600_StatePermute state) (Saber.KeccakF1600_StatePermute state) := by
  unfold Leak.KeccakF1600_StatePermute Saber.KeccakF1600_StatePermute
  repeat estep
/-- Leaving out the events of the linked permutation gives the linked permutation of the model. -/
class Erases [LPermute] [StatePermute] : Prop where
  /-- see above -/
  erase : ∀ s, E (LPermute.permute s) (StatePermute.permute s)
instance : Erases := ⟨E_KeccakF1600_StatePermute⟩
theorem E_permute [LPermute] [StatePermute] [Erases] (state : List (BitVec 64)) : E (LPermute.permute state) (StatePermute.permute state) :=
  Erases.erase state
macro_rules | `(tactic| estep) => `(tactic| with_reducible exact E_permute _)
'''
SE['Ref']['absorbLoop']='''theorem E_absorbLoop (s : List (BitVec 64)) (r : Nat) (m : List Byte) (mOff mlen : Nat) :
    E (Leak.absorbLoop s r m mOff mlen) (Saber.absorbLoop s r m mOff mlen) := by
  induction mlen using Nat.strongRecOn generalizing s mOff with
  | _ mlen ih =>
   by_cases h : r ≤ mlen ∧ 0 < r
   · rw [Leak.absorbLoop, Saber.absorbLoop, dif_pos h, dif_pos h]
     refine E.branch _ ?_
     refine E.bind ?_ fun s' => E.bind ?_ fun s'' => ih (mlen - r) (by omega) s'' (mOff + r)
     all_goals estep
   · rw [Leak.absorbLoop, Saber.absorbLoop, dif_neg h, dif_neg h]
     exact E.branch _ (E.pure _)
'''
SC['Ref']['KeccakF1600_StatePermute']='''theorem CT_KeccakF1600_StatePermute (state state' : List (BitVec 64)) :
    CT (Saber.Leak.KeccakF1600_StatePermute state) (Saber.Leak.KeccakF1600_StatePermute state') := by
  unfold Saber.Leak.KeccakF1600_StatePermute
  repeat ctstep
/-- The events of a linked permutation do not depend on the state, nor on which of two permutations is linked. -/
class PermCT (L L' : LPermute) : Prop where
  /-- see above -/
  ct : ∀ s s', CT (L.permute s) (L'.permute s')
instance : PermCT reference reference := ⟨CT_KeccakF1600_StatePermute⟩
theorem CT_permute {L L' : LPermute} [PermCT L L'] (s s' : List (BitVec 64)) : CT (L.permute s) (L'.permute s') := PermCT.ct s s'
macro_rules | `(tactic| ctstep) => `(tactic| with_reducible exact CT_permute _ _)
'''
SC['Ref']['absorbLoop']='''theorem R2_absorbLoop (s s' : List (BitVec 64)) (r : Nat) (m m' : List Byte) (mOff mlen : Nat) :
    R2 (absorbLoop (L := L) s r m mOff mlen) (absorbLoop (L := L') s' r m' mOff mlen) fun a b => a.2 = b.2 := by
  induction mlen using Nat.strongRecOn generalizing s s' mOff with
  | _ mlen ih =>
    rw [@absorbLoop.eq_def L, @absorbLoop.eq_def L']
    refine CT.bind (CT.branch _) fun _ _ => ?_
    by_cases h : r ≤ mlen ∧ 0 < r
    · rw [dif_pos h, dif_pos h]
      refine CT.bind (CT_xorBlock _ _ _ _ _ _) fun s s' => CT.bind (CT_permute _ _) fun s s' => ?_
      exact ih (mlen - r) (by omega) s s' (mOff + r)
    · rw [dif_neg h, dif_neg h]
      exact R2.pure rfl
-- nomacro
'''
SC['Ref']['keccak_absorb']='''theorem CT_keccak_absorb (s s' : List (BitVec 64)) (r : Nat) (m m' : List Byte) (mOff mlen : Nat) (p p' : Byte) :
    CT (keccak_absorb (L := L) s r m mOff mlen p) (keccak_absorb (L := L') s' r m' mOff mlen p') := by
  unfold keccak_absorb
  refine R2.bind (R2_absorbLoop _ _ _ _ _ _ _) ?_
  rintro ⟨s, a, b⟩ ⟨s', a', b'⟩ h
  obtain ⟨rfl, rfl⟩ := Prod.mk.inj h
  repeat ctstep
'''
SC['Ref']['keccak_squeezeblocks']='''theorem CT_keccak_squeezeblocks (h h' : List Byte) (hOff nblocks : Nat) (s s' : List (BitVec 64)) (r : Nat) :
    CT (keccak_squeezeblocks (L := L) h hOff nblocks s r) (keccak_squeezeblocks (L := L') h' hOff nblocks s' r) := by
  unfold keccak_squeezeblocks
  refine R2.bind (R2.loop (I := fun _ a b => a.2.1 = b.2.1) ?_ _ _ _ rfl) ?_
  · rintro i ⟨h, o, s⟩ ⟨h', o', s'⟩ e
    obtain rfl : o = o' := e
    refine CT.bind (CT_permute _ _) fun s s' => CT.bind ?_ fun h h' => R2.pure rfl
    repeat ctstep
  · rintro ⟨h, o, s⟩ ⟨h', o', s'⟩ e
    exact CT.pure _ _
'''

def le(lp,args,b):
    return b
SE['U']['Aes.keyTmp']='''theorem E_keyTmp (s : Saber.U.Aes.KS) : E (Saber.Leak.U.Aes.keyTmp s) (Saber.U.Aes.keyTmp s) := by
  unfold Saber.Leak.U.Aes.keyTmp Saber.U.Aes.keyTmp
  refine E.branch _ (E.ite ?_ (E.branch _ (E.ite ?_ ?_)))
  all_goals repeat estep
'''
SE['U']['Aes.ctrLoop']='''theorem E_ctrLoop (sk_exp : List (BitVec 64)) (ivw : List (BitVec 32)) (data : List Byte) (off len : Nat) :
    E (Saber.Leak.U.Aes.ctrLoop sk_exp ivw data off len) (Saber.U.Aes.ctrLoop sk_exp ivw data off len) := by
  induction len using Nat.strongRecOn generalizing ivw data off with
  | _ len ih =>
    rw [Saber.Leak.U.Aes.ctrLoop, Saber.U.Aes.ctrLoop]
    refine E.branch _ ?_
    by_cases h : 64 < len
    · rw [if_pos h, if_pos h]
      refine E.bind (E_aes_ctr4x _ _ _ _) ?_
      rintro ⟨data, ivw⟩
      exact ih (len - 64) (by omega) ivw data (off + 64)
    · rw [if_neg h, if_neg h]
      refine E.branch _ (E.ite ?_ ?_)
      all_goals repeat estep
'''
for S,r in (('Sha256',64),('Sha512',128)):
    SE['U'][S+'.blockLoop']=f'''theorem E_blockLoop (v : V) (inp : List Byte) (off inlen : Nat) :
    E (Saber.Leak.U.{S}.blockLoop v inp off inlen) (Saber.U.{S}.blockLoop v inp off inlen) := by
  induction inlen using Nat.strongRecOn generalizing v off with
  | _ inlen ih =>
    rw [Saber.Leak.U.{S}.blockLoop, Saber.U.{S}.blockLoop]
    refine E.branch _ ?_
    by_cases h : {r} ≤ inlen
    · rw [if_pos h, if_pos h]
      exact E.bind (E_block _ _ _) fun v => ih (inlen - {r}) (by omega) v (off + {r})
    · rw [if_neg h, if_neg h]
      exact E.pure _
'''
    SC['U'][S+'.blockLoop']=f'''theorem CT_blockLoop (v v' : V) (inp inp' : List Byte) (off inlen : Nat) :
    CT (Saber.Leak.U.{S}.blockLoop v inp off inlen) (Saber.Leak.U.{S}.blockLoop v' inp' off inlen) := by
  induction inlen using Nat.strongRecOn generalizing v v' off with
  | _ inlen ih =>
    rw [Saber.Leak.U.{S}.blockLoop, Saber.Leak.U.{S}.blockLoop]
    refine CT.bind (CT.branch _) fun _ _ => ?_
    by_cases h : {r} ≤ inlen
    · rw [if_pos h, if_pos h]
      exact CT.bind (CT_block _ _ _ _ _) fun v v' => ih (inlen - {r}) (by omega) v v' (off + {r})
    · rw [if_neg h, if_neg h]
      exact CT.pure _ _
'''
SC['U']['Aes.ctrLoop']='''theorem CT_ctrLoop (sk_exp sk_exp' : List (BitVec 64)) (ivw ivw' : List (BitVec 32)) (data data' : List Byte) (off len : Nat) :
    CT (Saber.Leak.U.Aes.ctrLoop sk_exp ivw data off len) (Saber.Leak.U.Aes.ctrLoop sk_exp' ivw' data' off len) := by
  induction len using Nat.strongRecOn generalizing ivw ivw' data data' off with
  | _ len ih =>
    rw [Saber.Leak.U.Aes.ctrLoop, Saber.Leak.U.Aes.ctrLoop]
    refine CT.bind (CT.branch _) fun _ _ => ?_
    by_cases h : 64 < len
    · rw [if_pos h, if_pos h]
      refine CT.bind (CT_aes_ctr4x _ _ _ _ _ _ _) ?_
      rintro ⟨data, ivw⟩ ⟨data', ivw'⟩
      exact ih (len - 64) (by omega) ivw ivw' data data' (off + 64)
    · rw [if_neg h, if_neg h]
      refine CT.bind (CT.branch _) fun _ _ => R2.ite ?_ ?_
      all_goals repeat ctstep
'''
SC['U']['Aes.keyTmp']='''theorem CT_keyTmp (s s' : Saber.U.Aes.KS) (hj : s.j = s'.j) (hk : s.k = s'.k) :
    CT (Saber.Leak.U.Aes.keyTmp s) (Saber.Leak.U.Aes.keyTmp s') := by
  unfold Saber.Leak.U.Aes.keyTmp
  rw [hj, hk]
  repeat ctstep
-- nomacro
'''
SC['U']['Aes.keyStep']='''theorem R2_keyStep (i : Nat) (s s' : Saber.U.Aes.KS) (h : s.j = s'.j ∧ s.k = s'.k) :
    R2 (Saber.Leak.U.Aes.keyStep i s) (Saber.Leak.U.Aes.keyStep i s') fun a b => a.j = b.j ∧ a.k = b.k := by
  unfold Saber.Leak.U.Aes.keyStep
  refine CT.bind (CT_keyTmp s s' h.1 h.2) fun _ _ => ?_
  refine CT.bind (CT.rd _ _ _) fun _ _ => CT.bind (CT.wr _ _ _ _ _) fun _ _ => ?_
  rw [h.1, h.2]
  refine CT.bind (CT.branch _) fun _ _ => R2.ite ?_ ?_ <;> exact R2.pure ⟨rfl, rfl⟩
-- nomacro
'''
SC['U']['Aes.keysched']='''theorem CT_keysched (comp_skey comp_skey' : List (BitVec 64)) (key key' : List Byte) (keyOff : Nat) :
    CT (Saber.Leak.U.Aes.keysched comp_skey key keyOff) (Saber.Leak.U.Aes.keysched comp_skey' key' keyOff) := by
  unfold Saber.Leak.U.Aes.keysched
  refine CT.bind (by ctstep) fun _ _ => CT.bind (CT.rd _ _ _) fun _ _ => ?_
  refine R2.bind (R2.loop (I := fun _ a b => a.j = b.j ∧ a.k = b.k) (fun i s t h => R2_keyStep i s t h) _ _ _ ⟨rfl, rfl⟩) fun a b _ => ?_
  repeat ctstep
'''
SC['U']['twoBits']='''theorem CT_twoBits (b b' k : Nat) : CT (Saber.Leak.U.twoBits b k) (Saber.Leak.U.twoBits b' k) := by
  unfold Saber.Leak.U.twoBits
  repeat ctstep
macro_rules | `(tactic| ctstep) => `(tactic| with_reducible exact Saber.Leak.U.CT_twoBits _ _ _)
-- nomacro
'''
A6 = '(a : List (BitVec 16)) (ao : Nat) (b : List (BitVec 16)) (bo : Nat) (c : List (BitVec 16)) (co : Nat)'
B6 = "(a a' : List (BitVec 16)) (ao : Nat) (b b' : List (BitVec 16)) (bo : Nat) (c c' : List (BitVec 16)) (co : Nat)"
for n in ('school_book_mul2_16','unrolled_kara_mem_bottom','unrolled_kara_mem_top'):
    pe={'school_book_mul2_16':f'  unfold Saber.Leak.M0.{n} Saber.M0.{n}\n  repeat first | exact E.lift _ | estep',
        'unrolled_kara_mem_bottom':'  exact E_kara 32 _ _ (E_school_book_mul2_16 mac) a ao b bo c co',
        'unrolled_kara_mem_top':'  exact E_kara 128 _ _ (E_unrolled_kara_mem_bottom mac) a ao b bo c co'}[n]
    pc={'school_book_mul2_16':f'  unfold Saber.Leak.M0.{n}\n  repeat first | exact CT.lift _ _ | ctstep',
        'unrolled_kara_mem_bottom':"  exact CT_kara 32 _ (CT_school_book_mul2_16 mac) a a' ao b b' bo c c' co",
        'unrolled_kara_mem_top':"  exact CT_kara 128 _ (CT_unrolled_kara_mem_bottom mac) a a' ao b b' bo c c' co"}[n]
    SE['M0'][n]=f"""theorem E_{n} (mac : Mac) {A6} :
    E (Saber.Leak.M0.{n} mac a ao b bo c co) (Saber.M0.{n} mac a ao b bo c co) := by
{pe}
macro_rules | `(tactic| estep) => `(tactic| with_reducible exact Saber.Leak.M0.E_{n} _ _ _ _ _ _ _)
-- nomacro
"""
    SC['M0'][n]=f"""theorem CT_{n} (mac : Mac) {B6} :
    CT (Saber.Leak.M0.{n} mac a ao b bo c co) (Saber.Leak.M0.{n} mac a' ao b' bo c' co) := by
{pc}
macro_rules | `(tactic| ctstep) => `(tactic| with_reducible exact Saber.Leak.M0.CT_{n} _ _ _ _ _ _ _ _ _ _)
-- nomacro
"""
SE['M0']['kara']=f"""theorem E_kara (k : Nat) (leaf : LLeaf) (leaf' : Leaf) (hl : ∀ a ao b bo c co, E (leaf a ao b bo c co) (leaf' a ao b bo c co))
    {A6} : E (Saber.Leak.M0.kara k leaf a ao b bo c co) (Saber.M0.kara k leaf' a ao b bo c co) := by
  unfold Saber.Leak.M0.kara Saber.M0.kara
  repeat first | exact hl _ _ _ _ _ _ | estep
-- nomacro
"""
SC['M0']['kara']=f"""theorem CT_kara (k : Nat) (leaf : LLeaf) (hl : ∀ a a' ao b b' bo c c' co, CT (leaf a ao b bo c co) (leaf a' ao b' bo c' co))
    {B6} : CT (Saber.Leak.M0.kara k leaf a ao b bo c co) (Saber.Leak.M0.kara k leaf a' ao b' bo c' co) := by
  unfold Saber.Leak.M0.kara
  repeat first | exact hl _ _ _ _ _ _ _ _ _ | ctstep
-- nomacro
"""
SE['M0']['gmLoop']='''theorem E_gmLoop (a : List (BitVec 16)) (g : GS) : E (Saber.Leak.M0.gmLoop a g) (Saber.M0.gmLoop a g) := by
  induction hn : 256 - g.start using Nat.strongRecOn generalizing a g with
  | _ n ih =>
    rw [Saber.Leak.M0.gmLoop, Saber.M0.gmLoop]
    refine E.bind (E_gmStep a g) ?_
    rintro ⟨a, g'⟩
    refine E.branch _ ?_
    by_cases h1 : g'.start > 255
    · simp only [h1, dif_pos]
      exact E.pure _
    · by_cases h2 : g.start < g'.start
      · simp only [h1, h2, dif_pos, dif_neg, not_false_eq_true]
        exact ih _ (by omega) a g' rfl
      · simp only [h1, h2, dif_neg, not_false_eq_true]
        exact E.lift _
'''
SC['M0']['gmStep']='''/-- The static variables that are not data. -/
def GRel (g g' : GS) : Prop := g.start = g'.start ∧ g.left = g'.left

theorem R2_gmStep (a a' : List (BitVec 16)) (g g' : GS) (h : GRel g g') :
    R2 (Saber.Leak.M0.gmStep (L := L) a g) (Saber.Leak.M0.gmStep (L := L') a' g') fun x y => GRel x.2 y.2 := by
  obtain ⟨buf, s, start, left⟩ := g
  obtain ⟨buf', s', start', left'⟩ := g'
  obtain ⟨rfl, rfl⟩ : start = start' ∧ left = left' := h
  unfold Saber.Leak.M0.gmStep
  refine CT.bind (by ctstep) ?_
  rintro ⟨_, _⟩ ⟨_, _⟩
  refine CT.bind (CT.branch _) fun _ _ => CT.bind (by ctstep) fun _ _ => CT.bind ?_ fun _ _ => R2.pure ⟨rfl, rfl⟩
  repeat ctstep
-- nomacro
'''
SC['M0']['gmLoop']='''theorem R2_gmLoop (a a' : List (BitVec 16)) (g g' : GS) (h : GRel g g') :
    R2 (Saber.Leak.M0.gmLoop (L := L) a g) (Saber.Leak.M0.gmLoop (L := L') a' g') fun x y => GRel x.2 y.2 := by
  induction hn : 256 - g.start using Nat.strongRecOn generalizing a a' g g' with
  | _ n ih =>
    rw [@Saber.Leak.M0.gmLoop.eq_def L, @Saber.Leak.M0.gmLoop.eq_def L']
    refine R2.bind (R2_gmStep a a' g g' h) ?_
    rintro ⟨a, g1⟩ ⟨a', g1'⟩ h1
    have e1 : g1.start = g1'.start := h1.1
    have e0 := h.1
    refine CT.bind (by simp only [e1]; exact CT.branch _) fun _ _ => ?_
    by_cases c1 : g1'.start > 255
    · simp only [e1, c1, dif_pos]
      exact R2.pure ⟨rfl, h1.2⟩
    · by_cases c2 : g'.start < g1'.start
      · simp only [e0, e1, c1, c2, dif_pos, dif_neg, not_false_eq_true]
        exact ih _ (by omega) a a' g1 g1' h1 rfl
      · simp only [e0, e1, c1, c2, dif_neg, not_false_eq_true]
        exact ⟨fun _ _ h => nomatch h⟩
-- nomacro
'''
SC['M0']['GenMatrix_poly']='''theorem R2_GenMatrix_poly (temp_ar temp_ar' : List (BitVec 16)) (seed seed' : List Byte) (seedOff poly_number : Nat) (g g' : GS)
    (h : poly_number = 0 ∨ GRel g g') : R2 (Saber.Leak.M0.GenMatrix_poly (L := L) temp_ar seed seedOff poly_number g)
      (Saber.Leak.M0.GenMatrix_poly (L := L') temp_ar' seed' seedOff poly_number g') fun x y => GRel x.2 y.2 := by
  unfold Saber.Leak.M0.GenMatrix_poly
  refine CT.bind (CT.branch _) fun _ _ => ?_
  by_cases c : poly_number = 0
  · rw [if_pos c, if_pos c]
    refine CT.bind (by ctstep) fun _ _ => CT.bind (by ctstep) fun _ _ => R2_gmLoop _ _ _ _ ⟨rfl, rfl⟩
  · rw [if_neg c, if_neg c]
    exact R2_gmLoop _ _ _ _ (h.resolve_left c)
-- nomacro
'''
SC['M0']['MatrixVectorMul_keypair']='''theorem CT_MatrixVectorMul_keypair (mac : Mac) (seed seed' : List Byte) (skpv skpv' res res' : List (List (BitVec 16))) (gs gs' : GS) :
    CT (Saber.Leak.M0.MatrixVectorMul_keypair (L := L) mac seed skpv res gs) (Saber.Leak.M0.MatrixVectorMul_keypair (L := L') mac seed' skpv' res' gs') := by
  unfold Saber.Leak.M0.MatrixVectorMul_keypair
  refine R2.bind (R2.loop (I := fun i a b => i = 0 ∨ GRel a.2.2 b.2.2) ?_ _ _ _ (.inl rfl)) ?_
  · intro i s t hi
    refine R2.mono (R2.loop (I := fun j a b => i + j = 0 ∨ GRel a.2.2 b.2.2) ?_ _ _ _ hi) fun a b h => ?_
    · rintro j ⟨res, temp, g⟩ ⟨res', temp', g'⟩ hj
      refine R2.bind (R2_GenMatrix_poly _ _ _ _ _ _ _ _ hj) ?_
      rintro ⟨temp, g⟩ ⟨temp', g'⟩ hg
      refine CT.bind (by ctstep) fun _ _ => CT.bind (by ctstep) fun _ _ => CT.bind (by ctstep) fun _ _ => CT.bind (by ctstep) fun _ _ => ?_
      exact R2.pure (.inr hg)
    · rcases h with h | h
      · exact absurd h (by show i + 3 ≠ 0; omega)
      · exact .inr h
  · rintro ⟨_, _, _⟩ ⟨_, _, _⟩ _
    exact CT.pure _ _
'''
SC['M0']['MatrixVectorMul_encryption']='''theorem CT_MatrixVectorMul_encryption (mac : Mac) (seed seed' : List Byte) (skpv skpv' : List (List (BitVec 16)))
    (ciphertext ciphertext' : List Byte) (gs gs' : GS) : CT (Saber.Leak.M0.MatrixVectorMul_encryption (L := L) mac seed skpv ciphertext gs)
      (Saber.Leak.M0.MatrixVectorMul_encryption (L := L') mac seed' skpv' ciphertext' gs') := by
  unfold Saber.Leak.M0.MatrixVectorMul_encryption
  refine R2.bind (R2.loop (I := fun i a b => i = 0 ∨ GRel a.2 b.2) ?_ _ _ _ (.inl rfl)) ?_
  · rintro i ⟨c, g⟩ ⟨c', g'⟩ hi
    refine CT.bind (by repeat ctstep) fun res res' => CT.bind (by repeat ctstep) fun acc acc' => ?_
    refine R2.bind (R2.loop (I := fun j a b => i + j = 0 ∨ GRel a.2.2 b.2.2) ?_ _ _ _ hi) ?_
    · rintro j ⟨res, acc, g⟩ ⟨res', acc', g'⟩ hj
      refine R2.bind (R2_GenMatrix_poly _ _ _ _ _ _ _ _ hj) ?_
      rintro ⟨acc, g⟩ ⟨acc', g'⟩ hg
      exact CT.bind (by ctstep) fun _ _ => CT.bind (by ctstep) fun _ _ => R2.pure (.inr hg)
    · rintro ⟨res, acc, g⟩ ⟨res', acc', g'⟩ h
      refine CT.bind (by ctstep) fun _ _ => CT.bind (by ctstep) fun _ _ => R2.pure (.inr ?_)
      rcases h with h | h
      · exact absurd h (by show i + 3 ≠ 0; omega)
      · exact h
  · rintro ⟨_, _⟩ ⟨_, _⟩ _
    exact CT.pure _ _
'''
SE['M4']={}; SC['M4']={}
PRE_E={}; PRE_C={}
LIB=('shake128','sha3_256','sha3_512','inc_init','inc_absorb','inc_finalize','inc_squeeze')
SKIP={'M4':['sub64','cmps']+['lib_'+n for n in LIB]}
PRE_E['M4']='''/-- Leaving out the events of the linked multiplication gives the linked multiplication of the model. -/
class ToomE (t : LToom) (t' : Toom) : Prop where
  /-- see above -/
  erase : ∀ a b r, E (t a b r) (t' a b r)
/-- see `ToomE` -/
class KaraE (t : LKara) (t' : Kara) : Prop where
  /-- see above -/
  erase : ∀ k, E (t k) (t' k)
theorem E_toom (t : LToom) (t' : Toom) [ToomE t t'] (a b r : List (BitVec 16)) : E (t a b r) (t' a b r) := ToomE.erase a b r
macro_rules | `(tactic| estep) => `(tactic| with_reducible exact Saber.Leak.M4.E_toom _ _ _ _ _)
theorem E_karaC (t : LKara) (t' : Kara) [KaraE t t'] (k : K4) : E (t k) (t' k) := KaraE.erase k
macro_rules | `(tactic| estep) => `(tactic| with_reducible exact Saber.Leak.M4.E_karaC _ _ _)
theorem E_sub64 (a : List (BitVec 16)) (off : Nat) : E (Saber.Leak.M4.sub64 a off) (Saber.M4.sub64 a off) := E.lift _
macro_rules | `(tactic| estep) => `(tactic| with_reducible exact Saber.Leak.M4.E_sub64 _ _)
theorem E_cmps (bytes vs : List Byte) : ∀ (fail : BitVec 32) (off : Nat),
    E (Saber.Leak.M4.cmps fail bytes off vs) (Saber.M4.cmps fail bytes off vs) := by
  induction vs with
  | nil => exact fun _ _ => E.pure _
  | cons v vs ih => exact fun _ _ => E.bind (E.rd _ _) fun _ => ih _ _
macro_rules | `(tactic| estep) => `(tactic| with_reducible exact Saber.Leak.M4.E_cmps _ _ _ _)
'''
PRE_C['M4']='''/-- The events of two linked multiplications do not depend on the data. -/
class ToomCT (t t' : LToom) : Prop where
  /-- see above -/
  ct : ∀ a a' b b' r r', CT (t a b r) (t' a' b' r')
/-- see `ToomCT` -/
class KaraCT (t t' : LKara) : Prop where
  /-- see above -/
  ct : ∀ k k', CT (t k) (t' k')
theorem CT_toom (t t' : LToom) [ToomCT t t'] (a a' b b' r r' : List (BitVec 16)) : CT (t a b r) (t' a' b' r') := ToomCT.ct a a' b b' r r'
macro_rules | `(tactic| ctstep) => `(tactic| with_reducible exact Saber.Leak.M4.CT_toom _ _ _ _ _ _ _ _)
theorem CT_karaC (t t' : LKara) [KaraCT t t'] (k k' : K4) : CT (t k) (t' k') := KaraCT.ct k k'
macro_rules | `(tactic| ctstep) => `(tactic| with_reducible exact Saber.Leak.M4.CT_karaC _ _ _ _)
theorem CT_sub64 (a a' : List (BitVec 16)) (off : Nat) : CT (Saber.Leak.M4.sub64 a off) (Saber.Leak.M4.sub64 a' off) := CT.lift _ _
macro_rules | `(tactic| ctstep) => `(tactic| with_reducible exact Saber.Leak.M4.CT_sub64 _ _ _)
theorem CT_cmps (bytes bytes' vs vs' : List Byte) (h : vs.length = vs'.length) : ∀ (fail fail' : BitVec 32) (off : Nat),
    CT (Saber.Leak.M4.cmps fail bytes off vs) (Saber.Leak.M4.cmps fail' bytes' off vs') := by
  induction vs generalizing vs' with
  | nil =>
    cases vs' with
    | nil => exact fun _ _ _ => CT.pure _ _
    | cons _ _ => cases h
  | cons v vs ih =>
    cases vs' with
    | nil => cases h
    | cons v' vs' => exact fun _ _ _ => CT.bind (CT.rd _ _ _) fun _ _ => ih vs' (Nat.succ.inj h) _ _ _
macro_rules | `(tactic| ctstep) => `(tactic| (with_reducible refine Saber.Leak.M4.CT_cmps _ _ _ _ ?_ _ _ _) <;> rfl)
theorem CT_call {α β : Type} (e : Event) (x : CM α) (y : CM β) : CT (⟨[e], x⟩ : LM α) (⟨[e], y⟩ : LM β) := ⟨fun _ _ _ _ => ⟨rfl, trivial⟩⟩
'''
for n,bs,a,b in (('shake128',"(out out' : List Byte) (outOff outlen : Nat) (inp inp' : List Byte) (inOff inlen : Nat)","out outOff outlen inp inOff inlen","out' outOff outlen inp' inOff inlen"),
  ('sha3_256',"(out out' : List Byte) (outOff : Nat) (inp inp' : List Byte) (inOff inlen : Nat)","out outOff inp inOff inlen","out' outOff inp' inOff inlen"),
  ('sha3_512',"(out out' : List Byte) (outOff : Nat) (inp inp' : List Byte) (inOff inlen : Nat)","out outOff inp inOff inlen","out' outOff inp' inOff inlen"),
  ('inc_init',"","",""),
  ('inc_absorb',"(ctx ctx' : lib.Ctx) (inp inp' : List Byte) (inOff inlen : Nat)","ctx inp inOff inlen","ctx' inp' inOff inlen"),
  ('inc_finalize',"(ctx ctx' : lib.Ctx)","ctx","ctx'"),
  ('inc_squeeze',"(out out' : List Byte) (outOff outlen : Nat) (ctx ctx' : lib.Ctx)","out outOff outlen ctx","out' outOff outlen ctx'")):
    k=1+sum(len(x.split(':')[0].split()) for x in bs.split('(')[1:])
    be=re.sub(r"(\w+) \1'",r'\1',bs)
    PRE_E['M4']+=f'''theorem E_lib_{n} (lib : Fips202Lib) {be} : E (lib_{n} lib {a}) (lib.{n} {a}) := rfl
macro_rules | `(tactic| estep) => `(tactic| with_reducible exact Saber.Leak.M4.E_lib_{n} {' '.join('_' for _ in range(1+len(a.split())))})
'''
    PRE_C['M4']+=f'''theorem CT_lib_{n} (lib : Fips202Lib) {bs} : CT (lib_{n} lib {a}) (lib_{n} lib {b}) := CT_call _ _ _
macro_rules | `(tactic| ctstep) => `(tactic| with_reducible exact Saber.Leak.M4.CT_lib_{n} {' '.join('_' for _ in range(k))})
'''
SE['M4']['toom_cook_4way_striding']='''theorem E_toom_cook_4way_striding (m : Arith) (kara : LKara) (kara' : Kara) [KaraE kara kara'] (a b res : List (BitVec 16)) :
    E (Saber.Leak.M4.toom_cook_4way_striding m kara a b res) (Saber.M4.toom_cook_4way_striding m kara' a b res) := by
  unfold Saber.Leak.M4.toom_cook_4way_striding Saber.M4.toom_cook_4way_striding
  repeat estep
instance (m : Arith) (kara : LKara) (kara' : Kara) [KaraE kara kara'] :
    ToomE (Saber.Leak.M4.toom_cook_4way_striding m kara) (Saber.M4.toom_cook_4way_striding m kara') :=
  ⟨E_toom_cook_4way_striding m kara kara'⟩
-- nomacro
'''
SC['M4']['toom_cook_4way_striding']='''theorem CT_toom_cook_4way_striding (m : Arith) (kara kara' : LKara) [KaraCT kara kara'] (a a' b b' res res' : List (BitVec 16)) :
    CT (Saber.Leak.M4.toom_cook_4way_striding m kara a b res) (Saber.Leak.M4.toom_cook_4way_striding m kara' a' b' res') := by
  unfold Saber.Leak.M4.toom_cook_4way_striding
  repeat ctstep
instance (m : Arith) (kara kara' : LKara) [KaraCT kara kara'] :
    ToomCT (Saber.Leak.M4.toom_cook_4way_striding m kara) (Saber.Leak.M4.toom_cook_4way_striding m kara') :=
  ⟨CT_toom_cook_4way_striding m kara kara'⟩
-- nomacro
'''
for n,o,ty in (('POLmu2BS','bytes','Byte'),('BS2POLmu','data','(BitVec 16)')):
    SE['M4'][n]=f'''theorem E_{n} (cs : Bool) (bytes : List Byte) (off : Nat) (data : List (BitVec 16)) :
    E (Saber.Leak.M4.{n} cs bytes off data) (Saber.M4.{n} cs bytes off data) := by
  unfold Saber.Leak.M4.{n} Saber.M4.{n}
  cases cs
  · exact E_{n.replace('mu','q')} bytes off data
  · exact E_{n}_c bytes off data
macro_rules | `(tactic| estep) => `(tactic| with_reducible exact Saber.Leak.M4.E_{n} _ _ _ _)
-- nomacro
'''
    SC['M4'][n]=f'''theorem CT_{n} (cs : Bool) (bytes bytes' : List Byte) (off : Nat) (data data' : List (BitVec 16)) :
    CT (Saber.Leak.M4.{n} cs bytes off data) (Saber.Leak.M4.{n} cs bytes' off data') := by
  unfold Saber.Leak.M4.{n}
  cases cs
  · exact CT_{n.replace('mu','q')} bytes bytes' off data data'
  · exact CT_{n}_c bytes bytes' off data data'
macro_rules | `(tactic| ctstep) => `(tactic| with_reducible exact Saber.Leak.M4.CT_{n} _ _ _ _ _ _)
-- nomacro
'''
SC['M4']['blkT']='''theorem R2_blkT (P : PSet) (data data' : List (BitVec 16)) (j : Nat) :
    R2 (Saber.Leak.M4.blkT P data j) (Saber.Leak.M4.blkT P data' j) fun x y => x.length = y.length := by
  unfold Saber.Leak.M4.blkT
  cases P
  all_goals
    repeat first
      | exact R2.pure rfl
      | ctstep
-- nomacro
'''
SC['M4']['POLT2BS']='''theorem CT_POLT2BS (P : PSet) (bytes bytes' : List Byte) (off : Nat) (data data' : List (BitVec 16)) :
    CT (Saber.Leak.M4.POLT2BS P bytes off data) (Saber.Leak.M4.POLT2BS P bytes' off data') := by
  unfold Saber.Leak.M4.POLT2BS
  refine CT.loop (fun j x x' => ?_) _ _ _
  refine R2.bind (R2_blkT P data data' j) fun _ _ h => ?_
  exact CT.wrs _ _ h _ _ _
'''
SC['M4']['POLT2BS_cmp']='''theorem CT_POLT2BS_cmp (P : PSet) (bytes bytes' : List Byte) (off : Nat) (data data' : List (BitVec 16)) :
    CT (Saber.Leak.M4.POLT2BS_cmp P bytes off data) (Saber.Leak.M4.POLT2BS_cmp P bytes' off data') := by
  unfold Saber.Leak.M4.POLT2BS_cmp
  refine CT.loop (fun j x x' => ?_) _ _ _
  refine R2.bind (R2_blkT P data data' j) fun _ _ h => ?_
  exact CT_cmps _ _ _ _ h _ _ _
'''
SE['Avx']={}; SC['Avx']={}
PRE_E['Avx']='''theorem E_ok {α : Type} (a : α) : E (pure a) (Except.ok a) := rfl
macro_rules | `(tactic| estep) => `(tactic| with_reducible exact Saber.Leak.Avx.E_ok _)
theorem E_evalEx (s : St) (e : Ex) : E (Saber.Leak.Avx.evalEx s e) (e.eval s) := by
  induction e with
  | v x => exact E.lift _
  | ix p i => exact E.bind (E.rd _ _) fun _ => E.rd _ _
  | set1 n => exact E.pure _
  | op2 o a b iha ihb => exact E.bind iha fun _ => E.bind ihb fun _ => E.pure _
  | slli a n ih => exact E.bind ih fun _ => E.pure _
  | srli a n ih => exact E.bind ih fun _ => E.pure _
theorem E_execStmt (t : Stmt) (s : St) : E (Saber.Leak.Avx.execStmt t s) (t.exec s) := by
  unfold Saber.Leak.Avx.execStmt Saber.Avx.Stmt.exec
  refine E.bind (E_evalEx s t.e) fun y => ?_
  cases t.l with
  | v x => exact E.bind (E.lift _) fun _ => E.pure _
  | ix p i => exact E.bind (E.rd _ _) fun _ => E.bind (E.wr _ _ _) fun _ => E.bind (E.wr _ _ _) fun _ => E.pure _
  | _ => exact E.lift _
theorem E_exec (l : List Stmt) : ∀ s : St, E (Saber.Leak.Avx.exec l s) (Saber.Avx.exec l s) := by
  induction l with
  | nil => exact fun _ => E.pure _
  | cons t l ih => exact fun s => E.bind (E_execStmt t s) ih
theorem E_run (n : Nat) (arrs : List (List Vec)) (l : List Stmt) : E (Saber.Leak.Avx.run n arrs l) (Saber.Avx.run n arrs l) :=
  E.bind (E_exec l _) fun _ => E.pure _
macro_rules | `(tactic| estep) => `(tactic| with_reducible exact Saber.Leak.Avx.E_run _ _ _)
theorem E_onSlice {α : Type} (m : List α) (off : Nat) {f : List α → LM (List α)} {g : List α → CM (List α)} (h : ∀ x, E (f x) (g x)) :
    E (Saber.Leak.Avx.onSlice m off f) (Saber.Avx.onSlice m off g) :=
  E.bind (h (m.drop off)) fun _ => E.pure _
macro_rules | `(tactic| estep) => `(tactic| with_reducible refine Saber.Leak.Avx.E_onSlice _ _ ?_)
theorem E_loadu (row : List (BitVec 16)) (off : Nat) : E (Saber.Leak.Avx.loadu row off) (Saber.Avx.loadu row off) := rfl
macro_rules | `(tactic| estep) => `(tactic| with_reducible exact Saber.Leak.Avx.E_loadu _ _)
/-- Leaving out the events of the linked functions gives the linked functions of the model. -/
class LibE (l : LLib) (l' : Lib) : Prop where
  /-- see above -/
  prf : ∀ out o n inp i m, E (l.prf out o n inp i m) (l'.prf out o n inp i m)
  /-- see above -/
  hash_h : ∀ out o inp i m, E (l.hash_h out o inp i m) (l'.hash_h out o inp i m)
  /-- see above -/
  hash_g : ∀ out o inp i m, E (l.hash_g out o inp i m) (l'.hash_g out o inp i m)
macro_rules | `(tactic| estep) => `(tactic| with_reducible exact Saber.Leak.Avx.LibE.prf _ _ _ _ _ _)
macro_rules | `(tactic| estep) => `(tactic| with_reducible exact Saber.Leak.Avx.LibE.hash_h _ _ _ _ _)
macro_rules | `(tactic| estep) => `(tactic| with_reducible exact Saber.Leak.Avx.LibE.hash_g _ _ _ _ _)
theorem E_load (p : List Byte) (off : Nat) : E (Saber.Leak.Avx.AesNi.load p off) (Saber.Avx.AesNi.load p off) := rfl
macro_rules | `(tactic| estep) => `(tactic| with_reducible exact Saber.Leak.Avx.E_load _ _)
theorem E_store (p : List Byte) (off : Nat) (a : List Byte) : E (Saber.Leak.Avx.AesNi.store p off a) (Saber.Avx.AesNi.store p off a) := rfl
macro_rules | `(tactic| estep) => `(tactic| with_reducible exact Saber.Leak.Avx.E_store _ _ _)
'''
PRE_C['Avx']='''theorem CT_evalEx (s s' : St) (e : Ex) : CT (Saber.Leak.Avx.evalEx s e) (Saber.Leak.Avx.evalEx s' e) := by
  induction e with
  | v x => exact CT.lift _ _
  | ix p i => exact CT.bind (CT.rd _ _ _) fun _ _ => CT.rd _ _ _
  | set1 n => exact CT.pure _ _
  | op2 o a b iha ihb => exact CT.bind iha fun _ _ => CT.bind ihb fun _ _ => CT.pure _ _
  | slli a n ih => exact CT.bind ih fun _ _ => CT.pure _ _
  | srli a n ih => exact CT.bind ih fun _ _ => CT.pure _ _
theorem CT_execStmt (t : Stmt) (s s' : St) : CT (Saber.Leak.Avx.execStmt t s) (Saber.Leak.Avx.execStmt t s') := by
  unfold Saber.Leak.Avx.execStmt
  refine CT.bind (CT_evalEx s s' t.e) fun y y' => ?_
  cases t.l with
  | v x => exact CT.bind (CT.lift _ _) fun _ _ => CT.pure _ _
  | ix p i => exact CT.bind (CT.rd _ _ _) fun _ _ => CT.bind (CT.wr _ _ _ _ _) fun _ _ => CT.bind (CT.wr _ _ _ _ _) fun _ _ => CT.pure _ _
  | _ => exact CT.lift _ _
theorem CT_exec (l : List Stmt) : ∀ s s' : St, CT (Saber.Leak.Avx.exec l s) (Saber.Leak.Avx.exec l s') := by
  induction l with
  | nil => exact fun _ _ => CT.pure _ _
  | cons t l ih => exact fun s s' => CT.bind (CT_execStmt t s s') ih
theorem CT_run (n : Nat) (arrs arrs' : List (List Vec)) (l : List Stmt) : CT (Saber.Leak.Avx.run n arrs l) (Saber.Leak.Avx.run n arrs' l) :=
  CT.bind (CT_exec l _ _) fun _ _ => CT.pure _ _
macro_rules | `(tactic| ctstep) => `(tactic| with_reducible exact Saber.Leak.Avx.CT_run _ _ _ _)
theorem CT_onSlice {α : Type} (m m' : List α) (off : Nat) {f g : List α → LM (List α)} (h : ∀ x x', CT (f x) (g x')) :
    CT (Saber.Leak.Avx.onSlice m off f) (Saber.Leak.Avx.onSlice m' off g) :=
  CT.bind ⟨fun a b ha hb => ⟨congrArg (List.cons _) ((h (m.drop off) (m'.drop off)).same a b ha hb).1, trivial⟩⟩ fun _ _ => CT.pure _ _
macro_rules | `(tactic| ctstep) => `(tactic| with_reducible refine Saber.Leak.Avx.CT_onSlice _ _ _ ?_)
theorem CT_loadu (row row' : List (BitVec 16)) (off : Nat) : CT (Saber.Leak.Avx.loadu row off) (Saber.Leak.Avx.loadu row' off) :=
  ⟨fun _ _ _ _ => ⟨rfl, trivial⟩⟩
macro_rules | `(tactic| ctstep) => `(tactic| with_reducible exact Saber.Leak.Avx.CT_loadu _ _ _)
/-- The events of two linked libraries do not depend on the data. -/
class LibCT (l l' : LLib) : Prop where
  /-- see above -/
  prf : ∀ out out' o n inp inp' i m, CT (l.prf out o n inp i m) (l'.prf out' o n inp' i m)
  /-- see above -/
  hash_h : ∀ out out' o inp inp' i m, CT (l.hash_h out o inp i m) (l'.hash_h out' o inp' i m)
  /-- see above -/
  hash_g : ∀ out out' o inp inp' i m, CT (l.hash_g out o inp i m) (l'.hash_g out' o inp' i m)
macro_rules | `(tactic| ctstep) => `(tactic| with_reducible exact Saber.Leak.Avx.LibCT.prf _ _ _ _ _ _ _ _)
macro_rules | `(tactic| ctstep) => `(tactic| with_reducible exact Saber.Leak.Avx.LibCT.hash_h _ _ _ _ _ _ _)
macro_rules | `(tactic| ctstep) => `(tactic| with_reducible exact Saber.Leak.Avx.LibCT.hash_g _ _ _ _ _ _ _)
theorem CT_load (p p' : List Byte) (off : Nat) : CT (Saber.Leak.Avx.AesNi.load p off) (Saber.Leak.Avx.AesNi.load p' off) :=
  ⟨fun _ _ _ _ => ⟨rfl, trivial⟩⟩
macro_rules | `(tactic| ctstep) => `(tactic| with_reducible exact Saber.Leak.Avx.CT_load _ _ _)
theorem CT_store (p p' : List Byte) (off : Nat) (a a' : List Byte) : CT (Saber.Leak.Avx.AesNi.store p off a) (Saber.Leak.Avx.AesNi.store p' off a') :=
  ⟨fun _ _ _ _ => ⟨rfl, trivial⟩⟩
macro_rules | `(tactic| ctstep) => `(tactic| with_reducible exact Saber.Leak.Avx.CT_store _ _ _ _ _)
theorem R2_self {α : Type} (x : LM α) : R2 x x fun a b => a = b := ⟨fun _ _ ha hb => ⟨rfl, Except.ok.inj (ha.symm.trans hb)⟩⟩
'''
for n in ('BLOCK1','BLOCK2'):
    SC['Avx']['AesNi.'+n]=f'''theorem R2_{n} (imm : Byte) (s s' : Saber.Avx.AesNi.KS) (h : s.idx = s'.idx) :
    R2 (Saber.Leak.Avx.AesNi.{n} imm s) (Saber.Leak.Avx.AesNi.{n} imm s') fun a b => a.idx = b.idx := by
  unfold Saber.Leak.Avx.AesNi.{n}
  rw [h]
  exact CT.bind (CT.wr _ _ _ _ _) fun _ _ => R2.pure rfl
-- nomacro
'''
SC['Avx']['AesNi.aesni_key256_expand']='''theorem CT_aesni_key256_expand (key key' : List Byte) (off : Nat) (rkeys rkeys' : List M128) :
    CT (Saber.Leak.Avx.AesNi.aesni_key256_expand key off rkeys) (Saber.Leak.Avx.AesNi.aesni_key256_expand key' off rkeys') := by
  unfold Saber.Leak.Avx.AesNi.aesni_key256_expand
  refine CT.bind (CT_load _ _ _) fun k0 k0' => CT.bind (CT_load _ _ _) fun k1 k1' => CT.bind (CT.wr _ _ _ _ _) fun r r' => ?_
  refine R2.bind (R2_BLOCK1 _ _ _ rfl) fun _ _ h => ?_
  iterate 6
    refine R2.bind (R2_BLOCK2 _ _ _ h) fun _ _ h => ?_
    refine R2.bind (R2_BLOCK1 _ _ _ h) fun _ _ h => ?_
  rw [h]
  exact CT.wr _ _ _ _ _
'''
SC['Avx']['AesNi.counters8']='-- nomacro\n'
SC['Avx']['AesNi.aesni_encrypt8']='''theorem R2_aesni_encrypt8 (out out' n : List Byte) (rkeys rkeys' : List M128) :
    R2 (Saber.Leak.Avx.AesNi.aesni_encrypt8 out n rkeys) (Saber.Leak.Avx.AesNi.aesni_encrypt8 out' n rkeys') fun a b => a.2 = b.2 := by
  unfold Saber.Leak.Avx.AesNi.aesni_encrypt8
  refine R2.bind (R2_self _) fun a b h => ?_
  obtain ⟨nv, n⟩ := a
  cases h
  refine CT.bind (CT.rd _ _ _) fun _ _ => ?_
  refine CT.bind ?_ fun _ _ => ?_
  · repeat ctstep
  refine CT.bind (CT.rd _ _ _) fun _ _ => ?_
  refine CT.bind ?_ fun _ _ => ?_
  · repeat ctstep
  exact R2.pure rfl
-- nomacro
'''
SC['Avx']['AesNi.loadNonce']='-- nomacro\n'
SC['Avx']['AesNi.crypto_stream_aes256ctr']='''theorem CT_crypto_stream_aes256ctr (out out' : List Byte) (outOff outlen : Nat) (n k k' : List Byte) (kOff : Nat) :
    CT (Saber.Leak.Avx.AesNi.crypto_stream_aes256ctr out outOff outlen n k kOff) (Saber.Leak.Avx.AesNi.crypto_stream_aes256ctr out' outOff outlen n k' kOff) := by
  unfold Saber.Leak.Avx.AesNi.crypto_stream_aes256ctr
  refine CT.bind (CT_aesni_key256_expand _ _ _ _ _) fun rk rk' => ?_
  refine R2.bind (R2_self _) fun n2 n2' h => ?_
  cases h
  refine R2.bind (Q := fun a b => a.2 = b.2) (R2.loop (I := fun _ (a b : List Byte × List Byte) => a.2 = b.2) ?_ _ _ _ ?_) fun a b _ => CT.pure _ _
  case refine_2 => rfl
  intro t a b h
  obtain ⟨o, n⟩ := a
  obtain ⟨o', n'⟩ := b
  cases h
  refine R2.bind (R2_aesni_encrypt8 _ _ _ _ _) fun a b h => ?_
  obtain ⟨o2, n⟩ := a
  obtain ⟨o2', n'⟩ := b
  cases h
  refine CT.bind (CT.branch _) fun _ _ => ?_
  refine CT.bind ?_ fun _ _ => ?_
  · repeat ctstep
  exact R2.pure rfl
-- nomacro
'''
SC['Avx']['AesNi.saber_aes256ctr_prf']='''theorem CT_saber_aes256ctr_prf (output output' : List Byte) (outOff outlen : Nat) (input input' : List Byte) (inOff : Nat) :
    CT (Saber.Leak.Avx.AesNi.saber_aes256ctr_prf output outOff outlen input inOff) (Saber.Leak.Avx.AesNi.saber_aes256ctr_prf output' outOff outlen input' inOff) :=
  CT_crypto_stream_aes256ctr _ _ _ _ _ _ _ _
-- nomacro
'''
SE['X4']={}; SC['X4']={}
PRE_E['X4']='''theorem E_four {σ : Type} {f : Fin 4 → σ → LM σ} {g : Fin 4 → σ → CM σ} (s : σ) (h : ∀ l s, E (f l s) (g l s)) :
    E (Saber.Leak.X4.four s f) (Saber.X4.four s g) :=
  E.bind (h 0 s) fun _ => E.bind (h 1 _) fun _ => E.bind (h 2 _) fun _ => h 3 _
macro_rules | `(tactic| estep) => `(tactic| with_reducible refine Saber.Leak.X4.E_four _ (fun _ _ => ?_))
theorem E_gather {α : Type} (n : Nat) {f : Nat → LM α} {g : Nat → CM α} (d : α) (h : ∀ i, E (f i) (g i)) :
    E (Saber.Leak.X4.gather n f d) (Saber.X4.gather n g d) :=
  E.loop (fun i _ => E.bind (h i) fun _ => E.pure _) n _
macro_rules | `(tactic| estep) => `(tactic| with_reducible refine Saber.Leak.X4.E_gather _ _ (fun _ => ?_))
theorem E_famM {α : Type} {f : Fin 4 → LM α} {g : Fin 4 → CM α} (h : ∀ l, E (f l) (g l)) : E (Saber.Leak.X4.famM f) (Saber.X4.famM g) :=
  E.bind (h 0) fun _ => E.bind (h 1) fun _ => E.bind (h 2) fun _ => E.bind (h 3) fun _ => E.pure _
macro_rules | `(tactic| estep) => `(tactic| with_reducible refine Saber.Leak.X4.E_famM (fun _ => ?_))
theorem E_fourA {τ : Type} (x : Fam τ) {f : Fin 4 → τ → LM τ} {g : Fin 4 → τ → CM τ} (h : ∀ l s, E (f l s) (g l s)) :
    E (Saber.Leak.X4.fourA x f) (Saber.X4.fourA x g) :=
  E_four x fun l s => E.bind (h l (s l)) fun _ => E.pure _
macro_rules | `(tactic| estep) => `(tactic| with_reducible refine Saber.Leak.X4.E_fourA _ (fun _ _ => ?_))
theorem E_rd2 {α : Type} (a : List (List α)) (i j : Nat) : E (Saber.Leak.X4.rd2 a i j) (Saber.X4.rd2 a i j) :=
  E.bind (E.rd _ _) fun _ => E.rd _ _
macro_rules | `(tactic| estep) => `(tactic| with_reducible exact Saber.Leak.X4.E_rd2 _ _ _)
theorem E_wr2 {α : Type} (a : List (List α)) (i j : Nat) (v : α) : E (Saber.Leak.X4.wr2 a i j v) (Saber.X4.wr2 a i j v) :=
  E.bind (E.rd _ _) fun _ => E.bind (E.wr _ _ _) fun _ => E.wr _ _ _
macro_rules | `(tactic| estep) => `(tactic| with_reducible exact Saber.Leak.X4.E_wr2 _ _ _ _)
'''
PRE_C['X4']='''theorem R2_four {σ τ : Type} {Q : σ → τ → Prop} {f : Fin 4 → σ → LM σ} {g : Fin 4 → τ → LM τ} (s : σ) (t : τ) (h0 : Q s t)
    (h : ∀ l s t, Q s t → R2 (f l s) (g l t) Q) : R2 (Saber.Leak.X4.four s f) (Saber.Leak.X4.four t g) Q :=
  R2.bind (h 0 s t h0) fun _ _ e => R2.bind (h 1 _ _ e) fun _ _ e => R2.bind (h 2 _ _ e) fun _ _ e => h 3 _ _ e
theorem CT_four {σ τ : Type} {f : Fin 4 → σ → LM σ} {g : Fin 4 → τ → LM τ} (s : σ) (t : τ) (h : ∀ l s t, CT (f l s) (g l t)) :
    CT (Saber.Leak.X4.four s f) (Saber.Leak.X4.four t g) := R2_four s t trivial fun l s t _ => h l s t
macro_rules | `(tactic| ctstep) => `(tactic| with_reducible refine Saber.Leak.X4.CT_four _ _ (fun _ _ _ => ?_))
theorem CT_gather {α β : Type} (n : Nat) {f : Nat → LM α} {g : Nat → LM β} (d : α) (e : β) (h : ∀ i, CT (f i) (g i)) :
    CT (Saber.Leak.X4.gather n f d) (Saber.Leak.X4.gather n g e) := by
  refine CT.loop (fun i _ _ => ?_) n _ _
  exact CT.bind (h i) fun _ _ => CT.pure _ _
macro_rules | `(tactic| ctstep) => `(tactic| with_reducible refine Saber.Leak.X4.CT_gather _ _ _ (fun _ => ?_))
theorem CT_famM {α β : Type} {f : Fin 4 → LM α} {g : Fin 4 → LM β} (h : ∀ l, CT (f l) (g l)) :
    CT (Saber.Leak.X4.famM f) (Saber.Leak.X4.famM g) :=
  CT.bind (h 0) fun _ _ => CT.bind (h 1) fun _ _ => CT.bind (h 2) fun _ _ => CT.bind (h 3) fun _ _ => CT.pure _ _
macro_rules | `(tactic| ctstep) => `(tactic| with_reducible refine Saber.Leak.X4.CT_famM (fun _ => ?_))
theorem CT_fourA {σ τ : Type} (x : Fam σ) (y : Fam τ) {f : Fin 4 → σ → LM σ} {g : Fin 4 → τ → LM τ} (h : ∀ l s t, CT (f l s) (g l t)) :
    CT (Saber.Leak.X4.fourA x f) (Saber.Leak.X4.fourA y g) :=
  CT_four x y fun l s t => CT.bind (h l (s l) (t l)) fun _ _ => CT.pure _ _
macro_rules | `(tactic| ctstep) => `(tactic| with_reducible refine Saber.Leak.X4.CT_fourA _ _ (fun _ _ _ => ?_))
theorem CT_rd2 {α β : Type} (a : List (List α)) (b : List (List β)) (i j : Nat) : CT (Saber.Leak.X4.rd2 a i j) (Saber.Leak.X4.rd2 b i j) :=
  CT.bind (CT.rd _ _ _) fun _ _ => CT.rd _ _ _
macro_rules | `(tactic| ctstep) => `(tactic| with_reducible exact Saber.Leak.X4.CT_rd2 _ _ _ _)
theorem CT_wr2 {α β : Type} (a : List (List α)) (b : List (List β)) (i j : Nat) (v : α) (w : β) :
    CT (Saber.Leak.X4.wr2 a i j v) (Saber.Leak.X4.wr2 b i j w) :=
  CT.bind (CT.rd _ _ _) fun _ _ => CT.bind (CT.wr _ _ _ _ _) fun _ _ => CT.wr _ _ _ _ _
macro_rules | `(tactic| ctstep) => `(tactic| with_reducible exact Saber.Leak.X4.CT_wr2 _ _ _ _ _ _)
'''
SE['X4']['absorbLoop4x']='''theorem E_absorbLoop4x (s : List V256) (r : Nat) (m : Fam (List Byte)) (mOff : Fam Nat) (mlen : Nat) :
    E (Saber.Leak.X4.absorbLoop4x s r m mOff mlen) (Saber.X4.absorbLoop4x s r m mOff mlen) := by
  induction mlen using Nat.strongRecOn generalizing s mOff with
  | _ mlen ih =>
   by_cases h : r ≤ mlen ∧ 0 < r
   · rw [Saber.Leak.X4.absorbLoop4x, Saber.X4.absorbLoop4x, dif_pos h, dif_pos h]
     refine E.branch _ ?_
     refine E.bind ?_ fun s' => E.bind ?_ fun s'' => ih (mlen - r) (by omega) s'' _
     all_goals estep
   · rw [Saber.Leak.X4.absorbLoop4x, Saber.X4.absorbLoop4x, dif_neg h, dif_neg h]
     exact E.branch _ (E.pure _)
'''
SC['X4']['absorbLoop4x']='''theorem R2_absorbLoop4x (s s' : List V256) (r : Nat) (m m' : Fam (List Byte)) (mOff : Fam Nat) (mlen : Nat) :
    R2 (Saber.Leak.X4.absorbLoop4x s r m mOff mlen) (Saber.Leak.X4.absorbLoop4x s' r m' mOff mlen) fun a b => a.2 = b.2 := by
  induction mlen using Nat.strongRecOn generalizing s s' mOff with
  | _ mlen ih =>
    rw [Saber.Leak.X4.absorbLoop4x.eq_def s, Saber.Leak.X4.absorbLoop4x.eq_def s']
    refine CT.bind (CT.branch _) fun _ _ => ?_
    by_cases h : r ≤ mlen ∧ 0 < r
    · rw [dif_pos h, dif_pos h]
      refine CT.bind (CT_xorBlock4x _ _ _ _ _ _) fun s s' => CT.bind (CT_KeccakP1600times4_PermuteAll_24rounds _ _) fun s s' => ?_
      exact ih (mlen - r) (by omega) s s' _
    · rw [dif_neg h, dif_neg h]
      exact R2.pure rfl
-- nomacro
'''
SC['X4']['keccak_absorb4x']='''theorem CT_keccak_absorb4x (s s' : List V256) (r : Nat) (m m' : Fam (List Byte)) (mOff : Fam Nat) (mlen : Nat) (p p' : Byte) :
    CT (Saber.Leak.X4.keccak_absorb4x s r m mOff mlen p) (Saber.Leak.X4.keccak_absorb4x s' r m' mOff mlen p') := by
  unfold Saber.Leak.X4.keccak_absorb4x
  refine R2.bind (R2_absorbLoop4x _ _ _ _ _ _ _) ?_
  rintro ⟨s, a, b⟩ ⟨s', a', b'⟩ h
  obtain ⟨rfl, rfl⟩ := Prod.mk.inj h
  repeat ctstep
'''
SC['X4']['keccak_squeezeblocks4x']='''theorem CT_keccak_squeezeblocks4x (h h' : Fam (List Byte)) (hOff : Fam Nat) (nblocks : Nat) (s s' : List V256) (r : Nat) :
    CT (Saber.Leak.X4.keccak_squeezeblocks4x h hOff nblocks s r) (Saber.Leak.X4.keccak_squeezeblocks4x h' hOff nblocks s' r) := by
  unfold Saber.Leak.X4.keccak_squeezeblocks4x
  refine R2.bind (R2.loop (I := fun _ a b => a.2.1 = b.2.1) ?_ _ _ _ rfl) ?_
  · rintro i ⟨h, o, s⟩ ⟨h', o', s'⟩ e
    obtain rfl : o = o' := e
    refine CT.bind (CT_KeccakP1600times4_PermuteAll_24rounds _ _) fun s s' => CT.bind ?_ fun h h' => R2.pure rfl
    repeat ctstep
  · rintro ⟨h, o, s⟩ ⟨h', o', s'⟩ e
    exact CT.pure _ _
'''
SE['X4']['loadBlock']='''theorem E_loadBlock {ld : Fin 4 → Nat → LM V4} {ld' : Fin 4 → Nat → CM V4} (off0 off1 : Fam Nat) (h : ∀ l o, E (ld l o) (ld' l o)) :
    E (Saber.Leak.X4.loadBlock ld off0 off1) (Saber.X4.loadBlock ld' off0 off1) :=
  E.bind (E_famM fun l => h l _) fun _ => E.bind (E_famM fun l => h l _) fun _ => E.pure _
macro_rules | `(tactic| estep) => `(tactic| with_reducible refine Saber.Leak.X4.E_loadBlock _ _ (fun _ _ => ?_))
-- nomacro
'''
SC['X4']['loadBlock']='''theorem CT_loadBlock {ld ld' : Fin 4 → Nat → LM V4} (off0 off1 : Fam Nat) (h : ∀ l o, CT (ld l o) (ld' l o)) :
    CT (Saber.Leak.X4.loadBlock ld off0 off1) (Saber.Leak.X4.loadBlock ld' off0 off1) :=
  CT.bind (CT_famM fun l => h l _) fun _ _ => CT.bind (CT_famM fun l => h l _) fun _ _ => CT.pure _ _
macro_rules | `(tactic| ctstep) => `(tactic| with_reducible refine Saber.Leak.X4.CT_loadBlock _ _ (fun _ _ => ?_))
-- nomacro
'''
SC['X4']['avx_load_16bit_8bit']='''theorem CT_avx_load_16bit_8bit (data data' : Fam (List (List (BitVec 16)))) (avx_data avx_data' : List V8) :
    CT (Saber.Leak.X4.avx_load_16bit_8bit data avx_data) (Saber.Leak.X4.avx_load_16bit_8bit data' avx_data') := by
  unfold Saber.Leak.X4.avx_load_16bit_8bit
  refine CT.loop (fun i x x' => ?_) _ _ _
  refine CT.bind (CT_loadBlock _ _ fun l o => CT_load_ps16 _ _ _) fun l l' => ?_
  refine CT.wrs _ _ ?_ _ _ _
  simp only [List.length_cons, List.length_nil]
'''
SC['X4']['avx_load_8bit_16bit']='''theorem CT_avx_load_8bit_16bit (bs bs' : Fam (List Byte)) (off : Fam Nat) (avx_bytes avx_bytes' : List V8) (size : Nat) :
    CT (Saber.Leak.X4.avx_load_8bit_16bit bs off avx_bytes size) (Saber.Leak.X4.avx_load_8bit_16bit bs' off avx_bytes' size) := by
  unfold Saber.Leak.X4.avx_load_8bit_16bit
  refine CT.loop (fun i x x' => ?_) _ _ _
  refine CT.bind (CT_loadBlock _ _ fun l o => CT_load_ps _ _ _) fun l l' => ?_
  refine CT.wrs _ _ ?_ _ _ _
  simp only [List.length_cons, List.length_nil]
'''

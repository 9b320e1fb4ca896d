import Verif.Merkle.Builder
/-!
# Merkle trees: byte-level lemmas, completeness, collision-extracting soundness
-/

namespace Solsab.Merkle

open Spec

/-! ## Bytes -/

theorem lexLe_iff : ∀ a b : List UInt8, lexLe a b = true ↔ a ≤ b
  | [], b => by simp [lexLe]
  | _ :: _, [] => by simp [lexLe]
  | x :: xs, y :: ys => by
    rw [List.cons_le_cons_iff, ← lexLe_iff xs ys, show lexLe (x :: xs) (y :: ys) =
      if x < y then true else if y < x then false else lexLe xs ys from rfl]
    split
    · rename_i h; simp [h]
    · rename_i h
      split
      · rename_i h2
        have : x ≠ y := by rintro rfl; exact h h2
        simp [h, this]
      · rename_i h2
        have : x = y := UInt8.le_antisymm (UInt8.not_lt.1 h2) (UInt8.not_lt.1 h)
        simp [this]

theorem hashPair_eq (rt : Runtime) (a b : Bytes32) : hashPair rt a b = rt.keccak (sortedPair a b) := by
  unfold hashPair sortedPair
  by_cases h : a.val ≤ b.val
  · rw [if_pos ((lexLe_iff _ _).2 h), if_pos h]
  · rw [if_neg (fun h' => h ((lexLe_iff _ _).1 h')), if_neg h]

theorem jsPair_eq (rt : Runtime) (a b : Bytes32) : jsPair rt a b = rt.keccak (sortedPair a b) := hashPair_eq rt a b

theorem sortedPair_comm (a b : Bytes32) : sortedPair a b = sortedPair b a := by
  unfold sortedPair
  by_cases h : a.val ≤ b.val
  · by_cases h' : b.val ≤ a.val
    · have : a.val = b.val := List.le_antisymm h h'
      rw [if_pos h, if_pos h', this]
    · rw [if_pos h, if_neg h']
  · have h' : b.val ≤ a.val := (List.le_total a.val b.val).resolve_left h
    rw [if_neg h, if_pos h']

theorem sortedPair_length (a b : Bytes32) : (sortedPair a b).length = 64 := by
  unfold sortedPair
  split <;> simp [a.2, b.2]

theorem append_inj32 {a b c d : Bytes32} (h : a.val ++ b.val = c.val ++ d.val) : a = c ∧ b = d := by
  obtain ⟨h1, h2⟩ := List.append_inj h (by rw [a.2, c.2])
  exact ⟨Subtype.ext h1, Subtype.ext h2⟩

theorem sortedPair_inj {a b c d : Bytes32} (h : sortedPair a b = sortedPair c d) :
    (a = c ∧ b = d) ∨ (a = d ∧ b = c) := by
  unfold sortedPair at h
  split at h <;> split at h
  · exact .inl (append_inj32 h)
  · exact .inr (append_inj32 h)
  · exact .inr (append_inj32 h).symm
  · exact .inl (append_inj32 h).symm

theorem leBytes_eq : ∀ n x, leBytes n x = littleEndian n x
  | 0, _ => rfl
  | n + 1, x => by
    unfold leBytes littleEndian
    rw [List.range_succ_eq_map, List.map_cons, List.map_map, leBytes_eq n (x / 256)]
    congr 1
    · rw [Nat.pow_zero, Nat.div_one]
      apply UInt8.toNat.inj
      simp
    · unfold littleEndian
      refine List.map_congr_left fun i _ => ?_
      simp only [Function.comp]
      rw [Nat.pow_succ', Nat.div_div_eq_div_mul]

theorem littleEndian_length (n x : Nat) : (littleEndian n x).length = n := by simp [littleEndian]

theorem leBytes_inj : ∀ n x y, x < 256 ^ n → y < 256 ^ n → leBytes n x = leBytes n y → x = y
  | 0, x, y, hx, hy, _ => by simp at hx hy; omega
  | n + 1, x, y, hx, hy, h => by
    unfold leBytes at h
    injection h with h1 h2
    have h1 := congrArg UInt8.toNat h1
    simp at h1
    rw [Nat.pow_succ] at hx hy
    have := leBytes_inj n (x / 256) (y / 256) (by omega) (by omega) h2
    omega

theorem littleEndian_inj {n x y : Nat} (hx : x < 256 ^ n) (hy : y < 256 ^ n)
    (h : littleEndian n x = littleEndian n y) : x = y := by
  rw [← leBytes_eq, ← leBytes_eq] at h
  exact leBytes_inj n x y hx hy h

theorem encoding_length (a : Allocation) : a.encoding.length = 44 := by
  unfold Allocation.encoding
  simp [littleEndian_length, a.recipient.2]

theorem encoding_inj {a b : Allocation} (h : a.encoding = b.encoding) : a = b := by
  unfold Allocation.encoding at h
  obtain ⟨h1, h2⟩ := List.append_inj h (by simp [littleEndian_length, a.recipient.2, b.recipient.2])
  obtain ⟨h3, h4⟩ := List.append_inj h1 (by simp [littleEndian_length])
  obtain ⟨ai, ar, aa⟩ := a
  obtain ⟨bi, br, ba⟩ := b
  have e1 := littleEndian_inj (by have := ai.toNat_lt; omega) (by have := bi.toNat_lt; omega) h3
  have e2 := littleEndian_inj (by have := aa.toNat_lt; omega) (by have := ba.toNat_lt; omega) h2
  have e3 := Subtype.ext h4
  simp only at e1 e2 e3
  rw [UInt32.toNat.inj e1, UInt64.toNat.inj e2, e3]

/-- The hash of an allocation's leaf. -/
theorem leafHash_eq (rt : Runtime) (i : UInt32) (r : Addr) (a : UInt64) :
    leafHash rt i.toNat r a.toNat = rt.keccak (rt.keccak (Allocation.mk i (rt.keyBytes r) a).encoding).val := by
  unfold leafHash leafBytes Allocation.encoding
  rw [leBytes_eq, leBytes_eq]

theorem jsLeaf_eq (rt : Runtime) (a : Allocation) : jsLeaf rt a = rt.keccak (rt.keccak a.encoding).val := by
  unfold jsLeaf Allocation.encoding
  rw [leBytes_eq, leBytes_eq]

/-! ## Completeness -/

theorem computeRoot_append (rt : Runtime) (h : Bytes32) (p q : List Bytes32) :
    computeRoot rt h (p ++ q) = computeRoot rt (computeRoot rt h p) q := by
  unfold computeRoot; rw [List.foldl_append]

theorem computeRoot_single (rt : Runtime) (h p : Bytes32) : computeRoot rt h [p] = rt.keccak (sortedPair h p) :=
  hashPair_eq rt h p

theorem proof_computes {rt : Runtime} {t : MTree} {a : Allocation} {p : List Bytes32} (h : t.Proof rt.keccak a p) :
    computeRoot rt (rt.keccak (rt.keccak a.encoding).val) p = t.root rt.keccak := by
  induction h with
  | leaf a => rfl
  | left h ih => rw [computeRoot_append, ih, computeRoot_single]; rfl
  | right h ih => rw [computeRoot_append, ih, computeRoot_single, sortedPair_comm]; rfl

theorem proof_leaf {k : List UInt8 → Bytes32} {t : MTree} {a : Allocation} {p : List Bytes32} (h : t.Proof k a p) :
    a ∈ t.leaves := by
  induction h with
  | leaf a => simp [MTree.leaves]
  | left h ih => simp [MTree.leaves, ih]
  | right h ih => simp [MTree.leaves, ih]

theorem proof_exists (k : List UInt8 → Bytes32) {t : MTree} {a : Allocation} (h : a ∈ t.leaves) : ∃ p, t.Proof k a p := by
  induction t with
  | leaf b =>
    simp [MTree.leaves] at h
    subst h
    exact ⟨[], .leaf _⟩
  | node l r ihl ihr =>
    simp only [MTree.leaves, List.mem_append] at h
    rcases h with h | h
    · obtain ⟨p, hp⟩ := ihl h; exact ⟨_, .left hp⟩
    · obtain ⟨p, hp⟩ := ihr h; exact ⟨_, .right hp⟩

/-! ## Soundness -/

theorem chainInputs_append (k : List UInt8 → Bytes32) (h : Bytes32) (p : List Bytes32) (q : Bytes32) :
    chainInputs k h (p ++ [q]) =
      chainInputs k h p ++ [sortedPair (p.foldl (fun c e => k (sortedPair c e)) h) q] := by
  induction p generalizing h with
  | nil => rfl
  | cons x p ih => simp only [List.cons_append, chainInputs, ih, List.foldl_cons]

theorem computeRoot_fold (rt : Runtime) (h : Bytes32) (p : List Bytes32) :
    computeRoot rt h p = p.foldl (fun c e => rt.keccak (sortedPair c e)) h := by
  unfold computeRoot
  congr 1
  funext a b
  exact hashPair_eq rt a b

theorem CollisionIn.mono {k : List UInt8 → Bytes32} {xs xs' ys ys' : List (List UInt8)} (h : CollisionIn k xs ys)
    (h1 : ∀ x ∈ xs, x ∈ xs') (h2 : ∀ y ∈ ys, y ∈ ys') : CollisionIn k xs' ys' := by
  obtain ⟨x, hx, y, hy, h⟩ := h
  exact ⟨x, h1 x hx, y, h2 y hy, h⟩

theorem checkInputs_snoc (k : List UInt8 → Bytes32) (a : Allocation) (p : List Bytes32) (q : Bytes32) :
    checkInputs k a (p ++ [q]) = checkInputs k a p ++
      [sortedPair (p.foldl (fun c e => k (sortedPair c e)) (k (k a.encoding).val)) q] := by
  unfold checkInputs
  rw [chainInputs_append]
  rfl

/-- The check leads to the root of `t` only for a leaf of `t`, or with a collision. -/
theorem fold_sound (k : List UInt8 → Bytes32) (a : Allocation) (n : Nat) : ∀ (ps : List Bytes32), ps.length = n →
    ∀ t : MTree, ps.foldl (fun c e => k (sortedPair c e)) (k (k a.encoding).val) = t.root k →
    a ∈ t.leaves ∨ CollisionIn k (t.inputs k) (checkInputs k a ps) := by
  induction n with
  | zero =>
    intro ps hps t h
    have : ps = [] := List.length_eq_zero_iff.1 hps
    subst this
    simp only [List.foldl_nil] at h
    cases t with
    | leaf b =>
      simp only [MTree.root] at h
      by_cases h1 : (k b.encoding).val = (k a.encoding).val
      · by_cases h2 : b.encoding = a.encoding
        · left; rw [encoding_inj h2]; simp [MTree.leaves]
        · exact .inr ⟨b.encoding, by simp [MTree.inputs], a.encoding, by simp [checkInputs], h2, Subtype.ext h1⟩
      · exact .inr ⟨_, by simp [MTree.inputs], _, by simp [checkInputs], h1, h.symm⟩
    | node l r =>
      refine .inr ⟨sortedPair (l.root k) (r.root k), by simp [MTree.inputs], (k a.encoding).val,
        by simp [checkInputs], fun he => ?_, h.symm⟩
      have := congrArg List.length he
      rw [sortedPair_length, (k a.encoding).2] at this
      omega
  | succ n ih =>
    intro ps hps t h
    have hne : ps ≠ [] := by rintro rfl; cases hps
    obtain ⟨p, q, rfl⟩ : ∃ p q, ps = p ++ [q] := ⟨_, _, (List.dropLast_concat_getLast hne).symm⟩
    have hlen : p.length = n := by simpa using hps
    rw [List.foldl_append, List.foldl_cons, List.foldl_nil] at h
    rw [checkInputs_snoc]
    generalize hg : p.foldl (fun c e => k (sortedPair c e)) (k (k a.encoding).val) = g at h ⊢
    cases t with
    | leaf b =>
      refine .inr ⟨(k b.encoding).val, by simp [MTree.inputs], sortedPair g q, by simp, fun he => ?_, h.symm⟩
      have := congrArg List.length he
      rw [sortedPair_length, (k b.encoding).2] at this
      omega
    | node l r =>
      by_cases he : sortedPair (l.root k) (r.root k) = sortedPair g q
      · rcases sortedPair_inj he with ⟨h1, _⟩ | ⟨_, h1⟩
        · rcases ih p hlen l (hg.trans h1.symm) with h2 | h2
          · exact .inl (by simp [MTree.leaves, h2])
          · exact .inr (CollisionIn.mono h2 (fun x hx => by simp [MTree.inputs, hx]) (fun y hy => by simp [hy]))
        · rcases ih p hlen r (hg.trans h1.symm) with h2 | h2
          · exact .inl (by simp [MTree.leaves, h2])
          · exact .inr (CollisionIn.mono h2 (fun x hx => by simp [MTree.inputs, hx]) (fun y hy => by simp [hy]))
      · exact .inr ⟨_, by simp [MTree.inputs], _, by simp, he, h.symm⟩

theorem computeRoot_sound {rt : Runtime} {a : Allocation} {ps : List Bytes32} {t : MTree}
    (h : computeRoot rt (rt.keccak (rt.keccak a.encoding).val) ps = t.root rt.keccak) :
    a ∈ t.leaves ∨ CollisionIn rt.keccak (t.inputs rt.keccak) (checkInputs rt.keccak a ps) := by
  rw [computeRoot_fold] at h
  exact fold_sound rt.keccak a ps.length ps rfl t h

/-! ## The tree builder -/

/-- One layer of trees from the one below. -/
def treeLayer : List MTree → List MTree
  | x :: y :: rest => .node x y :: treeLayer rest
  | [x] => [x]
  | [] => []

theorem treeLayer_root (rt : Runtime) : ∀ l : List MTree,
    (treeLayer l).map (·.root rt.keccak) = jsLayer rt (l.map (·.root rt.keccak))
  | [] => rfl
  | [_] => rfl
  | x :: y :: rest => by
    simp only [treeLayer, List.map_cons, jsLayer, treeLayer_root rt rest, jsPair_eq]
    rfl

theorem treeLayer_leaves : ∀ l : List MTree, (treeLayer l).flatMap MTree.leaves = l.flatMap MTree.leaves
  | [] => rfl
  | [_] => rfl
  | x :: y :: rest => by
    simp only [treeLayer, List.flatMap_cons, treeLayer_leaves rest, MTree.leaves, List.append_assoc]

theorem treeLayer_length (l : List MTree) (rt : Runtime) : (treeLayer l).length = (l.length + 1) / 2 := by
  have := congrArg List.length (treeLayer_root rt l)
  rw [jsLayer_length] at this
  simpa using this

/-- The builder's root is the root of a tree with exactly those leaves, in order. -/
theorem jsRoot_tree (rt : Runtime) (n : Nat) : ∀ l : List MTree, l.length = n + 1 →
    ∃ t : MTree, jsRoot rt (l.map (·.root rt.keccak)) = some (t.root rt.keccak) ∧
      t.leaves = l.flatMap MTree.leaves := by
  induction n using Nat.strongRecOn with
  | _ n ih =>
    intro l hl
    match l, hl with
    | [x], _ => exact ⟨x, by simp [jsRoot], by simp⟩
    | x :: y :: rest, hl =>
      have hlen := treeLayer_length (x :: y :: rest) rt
      simp only [List.length_cons] at hlen hl
      obtain ⟨t, h1, h2⟩ := ih ((n + 1 + 1) / 2 - 1) (by omega) (treeLayer (x :: y :: rest)) (by rw [hlen]; omega)
      refine ⟨t, ?_, ?_⟩
      · rw [List.map_cons, List.map_cons, jsRoot, ← List.map_cons, ← List.map_cons, ← treeLayer_root]
        exact h1
      · rw [h2, treeLayer_leaves]

/-- In the next layer, the node above position `k` is the hash of `k` and its partner, or `k` itself. -/
theorem jsLayer_get (rt : Runtime) : ∀ (l : List Bytes32) (k : Nat) (h : Bytes32), l[k]? = some h →
    (jsLayer rt l)[k / 2]? = some (match l[if k % 2 = 1 then k - 1 else k + 1]? with
      | some p => rt.keccak (sortedPair h p)
      | none => h)
  | [], k, h, hk => by simp at hk
  | [x], k, h, hk => by
    rw [List.getElem?_singleton] at hk
    split at hk
    · rename_i h0; subst h0
      injection hk with hk
      subst hk
      simp [jsLayer]
    · cases hk
  | x :: y :: rest, 0, h, hk => by
    simp only [List.getElem?_cons_zero] at hk
    injection hk with hk
    subst hk
    simp [jsLayer, jsPair_eq]
  | x :: y :: rest, 1, h, hk => by
    simp only [List.getElem?_cons_succ, List.getElem?_cons_zero] at hk
    injection hk with hk
    subst hk
    simp [jsLayer, jsPair_eq, sortedPair_comm]
  | x :: y :: rest, k + 2, h, hk => by
    simp only [List.getElem?_cons_succ] at hk
    have ih := jsLayer_get rt rest k h hk
    have e1 : (k + 2) / 2 = k / 2 + 1 := by omega
    have e2 : (if (k + 2) % 2 = 1 then k + 2 - 1 else k + 2 + 1) = (if k % 2 = 1 then k - 1 else k + 1) + 2 := by
      have : (k + 2) % 2 = k % 2 := by omega
      rw [this]
      split
      · have : k ≠ 0 := by rintro rfl; simp at *
        omega
      · rfl
    simp only [jsLayer, e1, e2, List.getElem?_cons_succ, ih]

theorem jsProof_computes (rt : Runtime) (n : Nat) : ∀ (l : List Bytes32), l.length = n → ∀ (k : Nat) (h : Bytes32),
    l[k]? = some h → jsRoot rt l = some (computeRoot rt h (jsProof rt l k)) := by
  induction n using Nat.strongRecOn with
  | _ n ih =>
    intro l hl k h hk
    match l, hl with
    | [], _ => simp at hk
    | [x], _ =>
      rw [List.getElem?_singleton] at hk
      split at hk
      · injection hk with hk; subst hk; simp [jsRoot, jsProof, computeRoot]
      · cases hk
    | x :: y :: rest, hl =>
      have hlen := jsLayer_length rt (x :: y :: rest)
      simp only [List.length_cons] at hlen hl
      have hg := jsLayer_get rt (x :: y :: rest) k h hk
      have := ih _ (by rw [hlen]; omega) (jsLayer rt (x :: y :: rest)) rfl (k / 2) _ hg
      rw [jsRoot, jsProof, computeRoot_append, this]
      congr 2
      generalize (x :: y :: rest)[if k % 2 = 1 then k - 1 else k + 1]? = o
      cases o with
      | some p => exact (computeRoot_single rt h p).symm
      | none => rfl

theorem jsPosition_some {leaf : Bytes32} : ∀ {l : List Bytes32}, leaf ∈ l → ∃ k, jsPosition leaf l = some k ∧ l[k]? = some leaf
  | [], h => by simp at h
  | x :: rest, h => by
    unfold jsPosition
    cases hp : jsPosition leaf rest with
    | some k =>
      refine ⟨k + 1, rfl, ?_⟩
      by_cases hm : leaf ∈ rest
      · obtain ⟨k', h1, h2⟩ := jsPosition_some hm
        rw [hp] at h1; injection h1 with h1; subst h1
        simpa using h2
      · exfalso
        have hnone : ∀ (l : List Bytes32), leaf ∉ l → jsPosition leaf l = none := by
          intro l
          induction l with
          | nil => intro _; rfl
          | cons z l ihl =>
            intro hz
            simp only [List.mem_cons, not_or] at hz
            unfold jsPosition
            rw [ihl hz.2]
            simp [Ne.symm hz.1]
        rw [hnone rest hm] at hp; cases hp
    | none =>
      by_cases hm : leaf ∈ rest
      · obtain ⟨k', h1, _⟩ := jsPosition_some hm
        rw [hp] at h1; cases h1
      · have : leaf = x := by simpa [hm] using h
        exact ⟨0, by simp [this], by simp [this]⟩

end Solsab.Merkle

import Verif.Base.GoMap
/-
Model of crypto/MerkleTree.go and of the parts of github.com/txaty/go-merkletree v0.1.15 it calls (`New` with a nil
configuration, i.e. mode ModeProofGen, SHA-256, leaf hashing on, and `Verify`). The hash is a parameter.
-/
set_option autoImplicit false

namespace CTng
variable (h : Str → Str)

/-- `merkletree.Proof`: sibling hashes from the leaf up, and the path as a bit vector (bit set: the node is a left
child). The library's `Path` is a uint32: trees with more than 2^32 leaves are out of range. -/
structure MProof where
  siblings : List Str
  path : Nat
  deriving DecidableEq, Repr

/-- One step of the tree construction: an odd level gets its last node duplicated, then neighbours are hashed. -/
def levelUp : List Str → List Str
  | [] => []
  | [a] => [h (a ++ a)]
  | a :: b :: t => h (a ++ b) :: levelUp t

/-- `bits.Len(uint(n - 1))`, the depth of a tree with `n` leaves. -/
def merkleDepth (n : Nat) : Nat := if n - 1 = 0 then 0 else Nat.log2 (n - 1) + 1

/-- The node on top after `d` levels. -/
def rootOf : Nat → List Str → Str
  | 0, l => (l[0]?).getD []
  | d + 1, l => rootOf d (levelUp h l)

/-- The proof of the leaf at index `i`: at each level the neighbour (the node itself if it was duplicated). -/
def proofOf : Nat → List Str → Nat → MProof
  | 0, _, _ => ⟨[], 0⟩
  | d + 1, l, i =>
    let up := proofOf d (levelUp h l) (i / 2)
    if i % 2 = 0 then
      ⟨(if i + 1 < l.length then (l[i + 1]?).getD [] else (l[i]?).getD []) :: up.siblings, 2 * up.path + 1⟩
    else ⟨(l[i - 1]?).getD [] :: up.siblings, 2 * up.path⟩

/-- `merkletree.MerkleTree`: the fields the project reads. -/
structure MTree where
  root : Str
  proofs : List MProof

/-- `merkletree.New(nil, blocks)` on the serialized blocks; `none` is the error for fewer than two blocks (the returned
pointer is then nil). crypto/MerkleTree.go:55-58 `GenerateMerkleTree`. -/
def merkleNew (blocks : List Str) : Option MTree :=
  if blocks.length ≤ 1 then none
  else
    let leaves := blocks.map h
    let d := merkleDepth blocks.length
    some ⟨rootOf h d leaves, (List.range blocks.length).map (proofOf h d leaves)⟩

/-- The loop of `merkletree.Verify`. -/
def foldProof : Str → List Str → Nat → Str
  | x, [], _ => x
  | x, s :: t, p => if p % 2 = 1 then foldProof (h (x ++ s)) t (p / 2) else foldProof (h (s ++ x)) t (p / 2)

/-- `merkletree.Verify(block, proof, root, nil)`; a nil proof is an error, which every caller treats like `false`. -/
def merkleVerify (block : Str) (proof : Option MProof) (root : Str) : Bool :=
  match proof with
  | none => false
  | some p => foldProof h (h block) p.siblings p.path = root

end CTng

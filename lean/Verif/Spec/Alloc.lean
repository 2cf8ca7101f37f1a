import Verif.Model.Partition
/-!
# Specification: free and used blocks

In natural numbers, from the header's usable range and the entries of the table.
-/

namespace Gpt.Spec

/-- Block `x` belongs to `p`. -/
def Covers (p : Partition) (x : Nat) : Prop := p.firstLba.toNat ≤ x ∧ x ≤ p.lastLba.toNat

/-- `p` is an entry in use: its type GUID is not the all-zero one. -/
def Used (t : PMap) (p : Partition) : Prop := ∃ id, (id, p) ∈ t ∧ p.partType.guid ≠ Uuid.nil

/-- Block `x` is usable and in no used partition. -/
def Free (h : Header) (t : PMap) (x : Nat) : Prop :=
  h.firstUsable.toNat ≤ x ∧ x ≤ h.lastUsable.toNat ∧ ∀ p, Used t p → ¬ Covers p x

/-- The blocks `a`, …, `a + n - 1` are free. -/
def FreeExtent (h : Header) (t : PMap) (a n : Nat) : Prop := ∀ x, a ≤ x → x < a + n → Free h t x

/-- A usable range that the free-space computation can represent. -/
structure Range (h : Header) : Prop where
  first : 1 ≤ h.firstUsable.toNat
  order : h.firstUsable.toNat ≤ h.lastUsable.toNat + 1
  last : h.lastUsable.toNat + 1 < 2 ^ 64

/-- The table is a map, and its used partitions are non-empty, inside the usable range and pairwise disjoint. -/
structure Tidy (h : Header) (t : PMap) : Prop where
  keys : t.Pairwise (fun a b => a.1 < b.1)
  order : ∀ p, Used t p → p.firstLba.toNat ≤ p.lastLba.toNat
  inside : ∀ p, Used t p → h.firstUsable.toNat ≤ p.firstLba.toNat ∧ p.lastLba.toNat ≤ h.lastUsable.toNat
  apart : ∀ i j p q, (i, p) ∈ t → (j, q) ∈ t → i ≠ j → p.partType.guid ≠ Uuid.nil → q.partType.guid ≠ Uuid.nil →
    ∀ x, ¬ (Covers p x ∧ Covers q x)

end Gpt.Spec

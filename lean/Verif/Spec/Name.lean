/-!
# Specification: what a partition entry can store of a name

An entry has room for 36 UTF-16 units and ends a name at the first NUL. Counted in characters: a character below U+10000
takes one unit, any other two. Independent of the model's encoder.
-/

namespace Gpt.Spec

/-- UTF-16 units of a character. -/
def width (c : Char) : Nat := if c.toNat < 0x10000 then 1 else 2

/-- UTF-16 units of a list of characters. -/
def totalWidth (cs : List Char) : Nat := (cs.map width).sum

/-- What comes back of `cs` from `n` units: stop at NUL, stop when full; half a surrogate pair reads as U+FFFD. -/
def storedName (n : Nat) : List Char → List Char
  | [] => []
  | c :: cs =>
    if c.toNat = 0 then []
    else if width c ≤ n then c :: storedName (n - width c) cs
    else if n = 0 then []
    else [Char.ofNat 0xFFFD]

/-- A name that fits an entry. -/
def Storable (cs : List Char) : Prop := totalWidth cs ≤ 36 ∧ ∀ c ∈ cs, c.toNat ≠ 0

/-- Storable names are stored as they are. -/
theorem storedName_of_fits (n : Nat) (cs : List Char) (h : totalWidth cs ≤ n) (h0 : ∀ c ∈ cs, c.toNat ≠ 0) :
    storedName n cs = cs := by
  induction cs generalizing n with
  | nil => rfl
  | cons c cs ih =>
    simp only [totalWidth, List.map_cons, List.sum_cons] at h
    rw [storedName, if_neg (h0 c (by simp)), if_pos (by omega)]
    rw [ih (n - width c) (by simp only [totalWidth]; omega) (fun d hd => h0 d (by simp [hd]))]

/-- What is stored is a prefix of the name, possibly followed by one U+FFFD that stands for a split pair. -/
theorem storedName_prefix (n : Nat) (cs : List Char) : ∃ pre rest, cs = pre ++ rest ∧
    (storedName n cs = pre ∨
      (storedName n cs = pre ++ [Char.ofNat 0xFFFD] ∧ totalWidth pre + 1 = n ∧ ∃ c tl, rest = c :: tl ∧ width c = 2)) := by
  induction cs generalizing n with
  | nil => exact ⟨[], [], rfl, .inl rfl⟩
  | cons c cs ih =>
    rw [storedName]
    split
    · exact ⟨[], c :: cs, rfl, .inl rfl⟩
    · split
      · rename_i hw
        obtain ⟨pre, rest, he, h⟩ := ih (n - width c)
        refine ⟨c :: pre, rest, by rw [he]; rfl, ?_⟩
        rcases h with h | ⟨h, hw2, h3⟩
        · exact .inl (by rw [h])
        · refine .inr ⟨by rw [h]; rfl, ?_, h3⟩
          simp only [totalWidth, List.map_cons, List.sum_cons] at hw2 ⊢
          omega
      · rename_i hw
        split
        · exact ⟨[], c :: cs, rfl, .inl rfl⟩
        · rename_i hn
          have h2 : width c = 1 ∨ width c = 2 := by unfold width; split <;> simp
          have h0 : totalWidth ([] : List Char) = 0 := rfl
          exact ⟨[], c :: cs, rfl, .inr ⟨rfl, by omega, c, cs, rfl, by omega⟩⟩

end Gpt.Spec

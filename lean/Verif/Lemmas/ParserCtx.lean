import Verif.Model.ParserSim
/-!
# Graphs of stacks: which stacks they hold, and what merging does to them
-/

namespace Verif.PSim

/-- The stacks of a context.  In SLL mode (`wild`) the empty context stands for every stack. -/
def PCtx.Has (wild : Bool) : PCtx → List Nat → Prop
  | .nil, _ => False
  | .dollar, γ => wild = true ∨ γ = []
  | .cons r p rest, γ => (∃ γ', γ = r :: γ' ∧ p.Has wild γ') ∨ rest.Has wild γ

theorem PCtx.size_pos (a : PCtx) : 1 ≤ a.size := by
  cases a <;> simp [PCtx.size]

theorem has_merge (wild : Bool) : ∀ n,
    (∀ a b : PCtx, 2 * (a.size + b.size) ≤ n → ∀ γ, a.Has wild γ ∨ b.Has wild γ → (mergeRoot wild n a b).Has wild γ) ∧
    (∀ a b : PCtx, 2 * (a.size + b.size) ≤ n + 1 → ∀ γ, a.Has wild γ ∨ b.Has wild γ →
      (mergeEntries wild n a b).Has wild γ) := by
  intro n
  induction n with
  | zero =>
    refine ⟨fun a b h => ?_, fun a b h => ?_⟩
    · have := a.size_pos; omega
    · have := a.size_pos; have := b.size_pos; omega
  | succ n ih =>
    refine ⟨?_, ?_⟩
    · intro a b h γ hγ
      rw [mergeRoot]
      split
      · next e => subst e; exact hγ.elim id id
      · split
        · next e =>
          simp only [Bool.and_eq_true] at e
          exact Or.inl e.1
        · exact ih.2 a b (by omega) γ hγ
    · intro a b h γ hγ
      unfold mergeEntries
      split
      · rcases hγ with h | h
        · exact h.elim
        · exact h
      · rcases hγ with h | h
        · exact h
        · exact h.elim
      · exact hγ.elim id id
      · next r p rest =>
        simp only [PCtx.size] at h
        have := p.size_pos
        rcases hγ with h' | h' | h'
        · exact Or.inr (ih.2 _ _ (by simp only [PCtx.size]; omega) γ (Or.inl h'))
        · exact Or.inl h'
        · exact Or.inr (ih.2 _ _ (by simp only [PCtx.size]; omega) γ (Or.inr h'))
      · next r p rest =>
        simp only [PCtx.size] at h
        have := p.size_pos
        rcases hγ with (h' | h') | h'
        · exact Or.inl h'
        · exact Or.inr (ih.2 _ _ (by simp only [PCtx.size]; omega) γ (Or.inl h'))
        · exact Or.inr (ih.2 _ _ (by simp only [PCtx.size]; omega) γ (Or.inr h'))
      · next r p rest r' p' rest' =>
        simp only [PCtx.size] at h
        have := p.size_pos
        have := p'.size_pos
        split
        · next e =>
          subst e
          rcases hγ with (⟨δ, rfl, h'⟩ | h') | (⟨δ, rfl, h'⟩ | h')
          · exact Or.inl ⟨δ, rfl, ih.1 _ _ (by omega) δ (Or.inl h')⟩
          · exact Or.inr (ih.2 _ _ (by omega) γ (Or.inl h'))
          · exact Or.inl ⟨δ, rfl, ih.1 _ _ (by omega) δ (Or.inr h')⟩
          · exact Or.inr (ih.2 _ _ (by omega) γ (Or.inr h'))
        · split
          · rcases hγ with (h' | h') | h'
            · exact Or.inl h'
            · exact Or.inr (ih.2 _ _ (by simp only [PCtx.size]; omega) γ (Or.inl h'))
            · exact Or.inr (ih.2 _ _ (by simp only [PCtx.size]; omega) γ (Or.inr h'))
          · rcases hγ with h' | (h' | h')
            · exact Or.inr (ih.2 _ _ (by simp only [PCtx.size]; omega) γ (Or.inl h'))
            · exact Or.inl h'
            · exact Or.inr (ih.2 _ _ (by simp only [PCtx.size]; omega) γ (Or.inr h'))

theorem of_has_merge : ∀ n,
    (∀ (a b : PCtx) γ, (mergeRoot false n a b).Has false γ → a.Has false γ ∨ b.Has false γ) ∧
    (∀ (a b : PCtx) γ, (mergeEntries false n a b).Has false γ → a.Has false γ ∨ b.Has false γ) := by
  intro n
  induction n with
  | zero =>
    refine ⟨fun a b γ h => ?_, fun a b γ h => ?_⟩
    · rw [mergeRoot] at h; exact Or.inl h
    · rw [mergeEntries] at h; exact Or.inl h
  | succ n ih =>
    refine ⟨?_, ?_⟩
    · intro a b γ h
      rw [mergeRoot] at h
      split at h
      · exact Or.inl h
      · rw [if_neg (by simp)] at h
        exact ih.2 a b γ h
    · intro a b γ h
      unfold mergeEntries at h
      split at h
      · exact Or.inr h
      · exact Or.inl h
      · exact Or.inl h
      · rcases h with h | h
        · exact Or.inr (Or.inl h)
        · rcases ih.2 _ _ γ h with h | h
          · exact Or.inl h
          · exact Or.inr (Or.inr h)
      · rcases h with h | h
        · exact Or.inl (Or.inl h)
        · rcases ih.2 _ _ γ h with h | h
          · exact Or.inl (Or.inr h)
          · exact Or.inr h
      · next r p rest r' p' rest' =>
        split at h
        · next e =>
          subst e
          rcases h with ⟨δ, rfl, h⟩ | h
          · rcases ih.1 _ _ δ h with h | h
            · exact Or.inl (Or.inl ⟨δ, rfl, h⟩)
            · exact Or.inr (Or.inl ⟨δ, rfl, h⟩)
          · rcases ih.2 _ _ γ h with h | h
            · exact Or.inl (Or.inr h)
            · exact Or.inr (Or.inr h)
        · split at h
          · rcases h with h | h
            · exact Or.inl (Or.inl h)
            · rcases ih.2 _ _ γ h with h | h
              · exact Or.inl (Or.inr h)
              · exact Or.inr h
          · rcases h with h | h
            · exact Or.inr (Or.inl h)
            · rcases ih.2 _ _ γ h with h | h
              · exact Or.inl h
              · exact Or.inr (Or.inr h)

/-- merging keeps every stack -/
theorem has_mergeCtx (wild : Bool) (a b : PCtx) (γ : List Nat) (h : a.Has wild γ ∨ b.Has wild γ) :
    (mergeCtx wild a b).Has wild γ := (has_merge wild _).1 a b (Nat.le_refl _) γ h

/-- with full contexts it adds none -/
theorem of_has_mergeCtx (a b : PCtx) (γ : List Nat) (h : (mergeCtx false a b).Has false γ) :
    a.Has false γ ∨ b.Has false γ := (of_has_merge _).1 a b γ h

/-- Contexts whose return states fit: `F r` are the states that may follow rule `r`, `ρ` the rule of a state.  A full stack is
empty only in rule 0, and the empty context is never one of several entries. -/
def PCtx.Typed (F : Int → List Nat) (ρ : Nat → Int) (wild : Bool) : Int → PCtx → Prop
  | _, .nil => True
  | r, .dollar => wild = true ∨ r = 0
  | r, .cons f p rest => f ∈ F r ∧ p.Typed F ρ wild (ρ f) ∧ rest.Typed F ρ wild r ∧ rest.hasEmptyPath = false

theorem typed_merge {F : Int → List Nat} {ρ : Nat → Int} {wild : Bool} (hF : F 0 = []) : ∀ n,
    (∀ r (a b : PCtx), a.Typed F ρ wild r → b.Typed F ρ wild r → (mergeRoot wild n a b).Typed F ρ wild r) ∧
    (∀ r (a b : PCtx), a.Typed F ρ wild r → b.Typed F ρ wild r → a.hasEmptyPath = false → b.hasEmptyPath = false →
      (mergeEntries wild n a b).Typed F ρ wild r ∧ (mergeEntries wild n a b).hasEmptyPath = false) := by
  intro n
  induction n with
  | zero =>
    refine ⟨fun r a b h _ => ?_, fun r a b h _ h1 h2 => ?_⟩
    · rw [mergeRoot]; exact h
    · rw [mergeEntries]; exact ⟨h, h1⟩
  | succ n ih =>
    refine ⟨?_, ?_⟩
    · intro r a b ha hb
      rw [mergeRoot]
      split
      · exact ha
      · split
        · next e =>
          simp only [Bool.and_eq_true] at e
          exact Or.inl e.1
        · next hne e =>
          simp only [Bool.and_eq_true, Bool.or_eq_true, beq_iff_eq, not_and, not_or] at e
          have key : ∀ x : PCtx, x.Typed F ρ wild r → x.hasEmptyPath = true → x = .dollar := by
            intro x hx hp
            cases x with
            | nil => cases hp
            | dollar => rfl
            | cons f p rest => rw [PCtx.hasEmptyPath, hx.2.2.2] at hp; cases hp
          have small : ∀ x : PCtx, r = 0 → x.Typed F ρ wild r → x = .nil ∨ x = .dollar := by
            intro x hr hx
            cases x with
            | nil => exact Or.inl rfl
            | dollar => exact Or.inr rfl
            | cons f p rest => have := hx.1; rw [hr, hF] at this; simp at this
          cases ea : a.hasEmptyPath with
          | true =>
            have := key a ha ea; subst this
            rcases ha with hw | hr
            · exact absurd rfl (e hw).1
            · rcases small b hr hb with rfl | rfl
              · cases n <;> exact Or.inr hr
              · exact absurd rfl hne
          | false =>
            cases eb : b.hasEmptyPath with
            | true =>
              have := key b hb eb; subst this
              rcases hb with hw | hr
              · exact absurd rfl (e hw).2
              · rcases small a hr ha with rfl | rfl
                · cases n
                  · exact trivial
                  · exact Or.inr hr
                · exact absurd rfl hne
            | false => exact (ih.2 r a b ha hb ea eb).1
    · intro r a b ha hb ea eb
      unfold mergeEntries
      split
      · exact ⟨hb, eb⟩
      · exact ⟨ha, ea⟩
      · exact ⟨ha, ea⟩
      · cases ea
      · cases eb
      · split
        · next e =>
          subst e
          have := ih.2 _ _ _ ha.2.2.1 hb.2.2.1 ha.2.2.2 hb.2.2.2
          exact ⟨⟨ha.1, ih.1 _ _ _ ha.2.1 hb.2.1, this⟩, this.2⟩
        · split
          · have := ih.2 _ _ _ ha.2.2.1 hb ha.2.2.2 eb
            exact ⟨⟨ha.1, ha.2.1, this⟩, this.2⟩
          · have := ih.2 _ _ _ ha hb.2.2.1 ea hb.2.2.2
            exact ⟨⟨hb.1, hb.2.1, this⟩, this.2⟩

theorem typed_mergeCtx {F : Int → List Nat} {ρ : Nat → Int} {wild : Bool} {r : Int} {a b : PCtx} (hF : F 0 = [])
    (ha : a.Typed F ρ wild r) (hb : b.Typed F ρ wild r) : (mergeCtx wild a b).Typed F ρ wild r :=
  (typed_merge hF _).1 r a b ha hb

theorem PCtx.eq_dollar {F : Int → List Nat} {ρ : Nat → Int} {wild : Bool} {r : Int} {x : PCtx}
    (hx : x.Typed F ρ wild r) (hp : x.hasEmptyPath = true) : x = .dollar := by
  cases x with
  | nil => cases hp
  | dollar => rfl
  | cons f p rest => rw [PCtx.hasEmptyPath, hx.2.2.2] at hp; cases hp

end Verif.PSim

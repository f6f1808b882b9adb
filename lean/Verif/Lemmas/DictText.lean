import Verif.Spec.DictText
import Verif.Lemmas.DecStr
import Verif.Model.Cli
/-!
# The text of a dimensionality
-/

namespace Verif
open Spec

theorem split_unique {p : Char → Prop} : ∀ {a b : Str} {x y : Char} {s t : Str}, (∀ c ∈ a, p c) → (∀ c ∈ b, p c) → ¬ p x → ¬ p y →
    a ++ x :: s = b ++ y :: t → a = b ∧ x = y ∧ s = t
  | [], [], _, _, _, _, _, _, _, _, h => by cases h; exact ⟨rfl, rfl, rfl⟩
  | [], d :: b, x, y, s, t, _, hb, hx, _, h => by
    injection h with h1 h2
    exact absurd (h1 ▸ hb d (List.mem_cons_self ..)) hx
  | c :: a, [], x, y, s, t, ha, _, _, hy, h => by
    injection h with h1 h2
    exact absurd (h1 ▸ ha c (List.mem_cons_self ..)) hy
  | c :: a, d :: b, x, y, s, t, ha, hb, hx, hy, h => by
    injection h with h1 h2
    obtain ⟨e1, e2⟩ := split_unique (fun c hc => ha c (List.mem_cons_of_mem _ hc)) (fun c hc => hb c (List.mem_cons_of_mem _ hc)) hx hy h2
    exact ⟨by rw [h1, e1], e2⟩

/-- the characters of integer literals -/
def LitChar (c : Char) : Prop := ('0'.toNat ≤ c.toNat ∧ c.toNat ≤ '9'.toNat) ∨ c = '+' ∨ c = '-'

theorem intLiteral_chars {s : Str} {v : Int} (h : IntLiteral s v) : ∀ c ∈ s, LitChar c := by
  obtain ⟨sg, ds, k, rfl, hs, -, hd, -⟩ := h
  intro c hc
  rcases List.mem_append.1 hc with hc | hc
  · cases hs with
    | none => cases hc
    | plus => exact .inr (.inl (by simpa using hc))
    | minus => exact .inr (.inr (by simpa using hc))
  · exact .inl (hd c hc)

theorem sign_digits {ds es : Str} {c : Char} (hd : Digits ds) (hc : c = '+' ∨ c = '-') : ds ≠ c :: es := by
  rintro rfl
  have := hd c (List.mem_cons_self ..)
  rcases hc with rfl | rfl <;> revert this <;> decide

theorem intLiteral_value {s : Str} {v w : Int} (h : IntLiteral s v) (h' : IntLiteral s w) : v = w := by
  obtain ⟨sg, ds, k, rfl, hs, -, hd, rfl⟩ := h
  obtain ⟨sg', ds', k', e, hs', -, hd', rfl⟩ := h'
  cases hs <;> cases hs' <;> simp only [List.nil_append, List.cons_append] at e
  · rw [e]
  · exact absurd e (sign_digits hd (.inl rfl))
  · exact absurd e (sign_digits hd (.inr rfl))
  · exact absurd e.symm (sign_digits hd' (.inl rfl))
  · injection e with _ e; rw [e]
  · injection e with e _; exact absurd e (by decide)
  · exact absurd e.symm (sign_digits hd' (.inr rfl))
  · injection e with e _; exact absurd e (by decide)
  · injection e with _ e; rw [e]

/-- entries, separated, and the closing bracket -/
theorem entries_unique : ∀ {l l' : List (Str × Int)} {is is' : List Str},
    (∀ q ∈ l, '\'' ∉ q.1) → (∀ q ∈ l', '\'' ∉ q.1) →
    List.Forall₂ (fun i q => ShowsEntry i q.1 q.2) is l → List.Forall₂ (fun i q => ShowsEntry i q.1 q.2) is' l' →
    List.intercalate c!", " is ++ c!"}" = List.intercalate c!", " is' ++ c!"}" → l = l' := by
  intro l
  induction l with
  | nil =>
    intro l' is is' _ _ h h' e
    cases h
    cases h' with
    | nil => rfl
    | cons h1 h2 =>
      obtain ⟨lit, -, rfl⟩ := h1
      cases h2 <;> simp [List.intercalate] at e
  | cons q l ih =>
    intro l' is is' hl hl' h h' e
    obtain ⟨n, v⟩ := q
    cases h with
    | @cons i _ is0 _ h1 h2 =>
    obtain ⟨lit, hlit, rfl⟩ := h1
    cases h' with
    | nil => cases h2 <;> simp [List.intercalate] at e
    | @cons i' q' is0' l0' h1' h2' =>
    obtain ⟨n', v'⟩ := q'
    obtain ⟨lit', hlit', rfl⟩ := h1'
    have key : ∀ (js : List Str) (m k : Str), ∃ (x : Char) (r : Str), List.intercalate c!", " ((c!"'" ++ m ++ c!"': " ++ k) :: js) ++ c!"}" =
        '\'' :: (m ++ '\'' :: (':' :: ' ' :: (k ++ x :: r))) ∧ ((js = [] ∧ x = '}') ∨ (js ≠ [] ∧ x = ',' ∧
          r = ' ' :: (List.intercalate c!", " js ++ c!"}"))) := by
      intro js m k
      cases js with
      | nil => exact ⟨'}', [], by simp [List.intercalate], .inl ⟨rfl, rfl⟩⟩
      | cons j js => exact ⟨',', _, by simp [List.intercalate], .inr ⟨by simp, rfl, rfl⟩⟩
    obtain ⟨x, r, e1, c1⟩ := key is0 n lit
    obtain ⟨x', r', e2, c2⟩ := key is0' n' lit'
    rw [e1, e2] at e
    injection e with _ e
    have hx : ¬ LitChar x := by rcases c1 with ⟨-, rfl⟩ | ⟨-, rfl, -⟩ <;> unfold LitChar <;> decide
    have hx' : ¬ LitChar x' := by rcases c2 with ⟨-, rfl⟩ | ⟨-, rfl, -⟩ <;> unfold LitChar <;> decide
    obtain ⟨rfl, -, e⟩ := split_unique (p := fun c => c ≠ '\'') (fun c hc hq => hl _ (List.mem_cons_self ..) (hq ▸ hc))
      (fun c hc hq => hl' _ (List.mem_cons_self ..) (hq ▸ hc)) (by simp) (by simp) e
    injection e with _ e
    injection e with _ e
    obtain ⟨rfl, rfl, rfl⟩ := split_unique (intLiteral_chars hlit) (intLiteral_chars hlit') hx hx' e
    obtain rfl := intLiteral_value hlit hlit'
    congr 1
    rcases c1 with ⟨rfl, rfl⟩ | ⟨hn, rfl, rfl⟩
    · rcases c2 with ⟨rfl, -⟩ | ⟨-, h, -⟩
      · cases h2; cases h2'; rfl
      · exact absurd h (by decide)
    · rcases c2 with ⟨-, h⟩ | ⟨-, -, h⟩
      · exact absurd h (by decide)
      · injection h with _ h
        exact ih (fun q hq => hl q (List.mem_cons_of_mem _ hq)) (fun q hq => hl' q (List.mem_cons_of_mem _ hq)) h2 h2' h

theorem showsDict_unique {t : Str} {l l' : List (Str × Int)} (hl : ∀ q ∈ l, '\'' ∉ q.1) (hl' : ∀ q ∈ l', '\'' ∉ q.1)
    (h : ShowsDict t l) (h' : ShowsDict t l') : l = l' := by
  obtain ⟨is, h1, rfl⟩ := h
  obtain ⟨is', h1', e⟩ := h'
  rw [List.append_assoc, List.append_assoc] at e
  exact entries_unique hl hl' h1 h1' (List.append_cancel_left e)

theorem pyRepr_ok {s t : Str} : pyRepr s = .ok t ↔ PlainName s ∧ t = c!"'" ++ s ++ c!"'" := by
  unfold pyRepr
  have hs : (s.all fun c => 32 ≤ c.toNat && c.toNat < 127 && c != '\'' && c != '\\') = true ↔ PlainName s := by
    simp [PlainName, and_assoc]
  by_cases h : (s.all fun c => 32 ≤ c.toNat && c.toNat < 127 && c != '\'' && c != '\\') = true
  · rw [if_pos h]
    constructor
    · intro e; cases e; exact ⟨hs.1 h, rfl⟩
    · rintro ⟨-, rfl⟩; rfl
  · rw [if_neg h]
    constructor
    · intro e; cases e
    · rintro ⟨h1, -⟩; exact absurd (hs.2 h1) h

theorem reprItems_shows : ∀ {l : List (Str × Int)} {is : List Str}, reprItems l = .ok is →
    List.Forall₂ (fun i q => ShowsEntry i q.1 q.2) is l ∧ ∀ q ∈ l, PlainName q.1
  | [], _, h => by cases h; exact ⟨.nil, by simp⟩
  | (n, v) :: l, is, h => by
    simp only [reprItems, bind, Except.bind] at h
    cases hk : pyRepr n with
    | error e => rw [hk] at h; cases h
    | ok k =>
      cases hr : reprItems l with
      | error e => rw [hk, hr] at h; cases h
      | ok r =>
        rw [hk, hr] at h; cases h
        obtain ⟨h1, h2⟩ := reprItems_shows hr
        obtain ⟨h3, rfl⟩ := pyRepr_ok.1 hk
        refine ⟨.cons ⟨_, intLiteral_intStr v, by simp⟩ h1, ?_⟩
        intro q hq
        rcases List.mem_cons.1 hq with rfl | hq
        · exact h3
        · exact h2 q hq

theorem reprItems_total : ∀ {l : List (Str × Int)}, (∀ q ∈ l, PlainName q.1) → ∃ is, reprItems l = .ok is
  | [], _ => ⟨_, rfl⟩
  | (n, v) :: l, h => by
    obtain ⟨is, h1⟩ := reprItems_total fun q hq => h q (List.mem_cons_of_mem _ hq)
    refine ⟨((c!"'" ++ n ++ c!"'") ++ (c!": " ++ intStr v)) :: is, ?_⟩
    simp only [reprItems, bind, Except.bind, pyRepr_ok.2 ⟨h _ (List.mem_cons_self ..), rfl⟩, h1]

theorem joinComma_eq : ∀ l : List Str, joinComma l = List.intercalate c!", " l
  | [] => rfl
  | [x] => by simp [joinComma, List.intercalate]
  | x :: y :: l => by
    rw [joinComma, joinComma_eq (y :: l)]
    · simp [List.intercalate]
    · simp

end Verif

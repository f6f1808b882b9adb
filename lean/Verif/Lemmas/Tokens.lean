import Verif.Lemmas.Lexer
/-!
# What the tokens of a text look like
-/

namespace Verif

/-- every token of a text was matched by a rule of its kind, in some mode -/
theorem tokenises_rule {m : Mode} {s : Str} {ts : List Token} (h : Tokenises m s ts) {t : Token} (ht : t ∈ ts) :
    ∃ (m' : Mode) (r : Re) (mo : Option Mode), (t.kind, r, mo) ∈ m'.rules ∧ Matches r t.text := by
  induction h with
  | nil => cases ht
  | cons hn _ ih =>
    rcases List.mem_cons.1 ht with rfl | ht
    · obtain ⟨i, r, mo, h1, h2, h3, h4, h5, _⟩ := hn
      exact ⟨_, r, mo, List.mem_of_getElem? h1, h5⟩
    · exact ih ht

theorem rules_int : ∀ (m : Mode) q, q ∈ m.rules → q.1 = .INT → q.2.1 = Rule.INT := by
  intro m; cases m <;> decide +kernel
theorem rules_signed : ∀ (m : Mode) q, q ∈ m.rules → q.1 = .SIGNED_INT → q.2.1 = Rule.SIGNED_INT := by
  intro m; cases m <;> decide +kernel
theorem rules_float : ∀ (m : Mode) q, q ∈ m.rules → q.1 = .FLOAT → q.2.1 = Rule.FLOAT := by
  intro m; cases m <;> decide +kernel
theorem rules_id : ∀ (m : Mode) q, q ∈ m.rules → q.1 = .ID → q.2.1 = Rule.ID := by
  intro m; cases m <;> decide +kernel
theorem rules_ws : ∀ (m : Mode) q, q ∈ m.rules → q.1 = .WS → q.2.1 = Rule.WS := by
  intro m; cases m <;> decide +kernel
theorem rules_shift : ∀ (m : Mode) q, q ∈ m.rules → q.1 = .SHIFT_OP → q.2.1 = Rule.SHIFT_OP := by
  intro m; cases m <;> decide +kernel
theorem rules_log : ∀ (m : Mode) q, q ∈ m.rules → q.1 = .LOG → q.2.1 = Rule.LOG := by
  intro m; cases m <;> decide +kernel
theorem rules_uni : ∀ (m : Mode) q, q ∈ m.rules → q.1 = .UNICODE_EXPONENT → q.2.1 = Rule.UNICODE_EXPONENT := by
  intro m; cases m <;> decide +kernel
theorem rules_raise : ∀ (m : Mode) q, q ∈ m.rules → q.1 = .RAISE → q.2.1 = Rule.RAISE := by
  intro m; cases m <;> decide +kernel

/-- repetitions of a class -/
theorem matches_star_cls {rs : List (Char × Char)} {s : Str} : Matches (.star (.cls rs)) s ↔ ∀ c ∈ s, inRanges c rs = true := by
  constructor
  · intro h
    generalize hr : Re.star (.cls rs) = r at h
    induction h with
    | starNil => intro c hc; cases hc
    | starCons h1 h2 _ ih =>
      cases hr
      obtain ⟨d, rfl, hd⟩ := matches_cls.1 h1
      intro c hc
      rcases List.mem_cons.1 hc with rfl | hc
      · exact hd
      · exact ih rfl c hc
    | _ => cases hr
  · intro h
    induction s with
    | nil => exact .starNil
    | cons c s ih =>
      exact Matches.starCons (s := [c]) (matches_cls.2 ⟨c, rfl, h c (List.mem_cons_self ..)⟩)
        (ih fun d hd => h d (List.mem_cons_of_mem _ hd))

theorem matches_plus_cls {rs : List (Char × Char)} {s : Str} :
    Matches (Re.plus (.cls rs)) s ↔ s ≠ [] ∧ ∀ c ∈ s, inRanges c rs = true := by
  unfold Re.plus
  rw [matches_seq]
  constructor
  · rintro ⟨x, y, rfl, h1, h2⟩
    obtain ⟨d, rfl, hd⟩ := matches_cls.1 h1
    rw [matches_star_cls] at h2
    refine ⟨by simp, fun c hc => ?_⟩
    rcases List.mem_cons.1 hc with rfl | hc
    · exact hd
    · exact h2 c hc
  · rintro ⟨h1, h2⟩
    cases s with
    | nil => exact absurd rfl h1
    | cons c s =>
      exact ⟨[c], s, rfl, matches_cls.2 ⟨c, rfl, h2 c (List.mem_cons_self ..)⟩,
        matches_star_cls.2 fun d hd => h2 d (List.mem_cons_of_mem _ hd)⟩

theorem matches_chr {c : Char} {s : Str} : Matches (Re.chr c) s ↔ s = [c] := by
  unfold Re.chr
  rw [matches_cls]
  constructor
  · rintro ⟨d, rfl, hd⟩
    obtain ⟨lo, hi, h1, h2, h3⟩ := inRanges_iff.1 hd
    cases List.mem_singleton.1 h1
    have : d.toNat = c.toNat := Nat.le_antisymm h3 h2
    rw [Char.toNat_inj.1 this]
  · rintro rfl
    exact ⟨c, rfl, inRanges_iff.2 ⟨c, c, List.mem_singleton.2 rfl, Nat.le_refl _, Nat.le_refl _⟩⟩

theorem matches_lit {w s : Str} : Matches (Re.lit w) s ↔ s = w := by
  induction w generalizing s with
  | nil => exact matches_eps
  | cons c w ih =>
    cases w with
    | nil => exact matches_chr
    | cons d w =>
      rw [Re.lit, matches_seq]
      constructor
      · rintro ⟨x, y, rfl, h1, h2⟩
        rw [matches_chr] at h1
        rw [ih] at h2
        rw [h1, h2]; rfl
      · rintro rfl
        exact ⟨[c], d :: w, rfl, matches_chr.2 rfl, ih.2 rfl⟩
      · simp

theorem matches_opt {r : Re} {s : Str} : Matches (Re.opt r) s ↔ s = [] ∨ Matches r s := by
  unfold Re.opt
  rw [matches_alt, matches_eps, Or.comm]

end Verif

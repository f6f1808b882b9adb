import Verif.Model.Xml
/-! Lemmas about tags: popping by (structural) equality is popping by position. -/
namespace Verif
namespace Tag

theorem erase_first {c : Tag} : ∀ {before after : List Tag}, (∀ b ∈ before, b.name ≠ c.name) →
    (before ++ c :: after).erase c = before ++ after
  | [], after, _ => by simp
  | b :: before, after, h => by
    have hb : b ≠ c := fun e => h b (by simp) (by rw [e])
    have : (b == c) = false := by simp [hb]
    rw [List.cons_append, List.erase_cons, this]
    simp only [Bool.false_eq_true, if_false, List.cons_append]
    rw [erase_first (fun x hx => h x (List.mem_cons_of_mem _ hx))]

theorem popFirst_some {t : Tag} {n : Str} {before after : List Tag} {c : Tag}
    (hc : t.children = before ++ c :: after) (hb : ∀ b ∈ before, b.name ≠ n) (hn : c.name = n) :
    t.popFirst n = (some c, .mk t.name (before ++ after) t.text) := by
  subst hn
  have hf : t.children.find? (fun x => decide (x.name = c.name)) = some c := by
    rw [hc, List.find?_append]
    have : before.find? (fun x => decide (x.name = c.name)) = none := by
      rw [List.find?_eq_none]; intro b hb'; simp [hb b hb']
    simp [this]
  unfold popFirst removeChild
  rw [hf]
  simp only
  rw [hc, erase_first hb]

theorem popFirst_none {t : Tag} {n : Str} (h : ∀ c ∈ t.children, c.name ≠ n) : t.popFirst n = (none, t) := by
  unfold popFirst
  have : t.children.find? (fun x => decide (x.name = n)) = none := by
    rw [List.find?_eq_none]; intro b hb'; simp [h b hb']
  rw [this]

theorem popIter_loop (nm tx n : Str) : ∀ (rest keep acc : List Tag), (∀ k ∈ keep, k.name ≠ n) →
    rest.foldl (fun (x : List Tag × Tag) c => if c.name = n then (x.1 ++ [c], x.2.removeChild c) else x)
      (acc, .mk nm (keep ++ rest) tx)
    = (acc ++ rest.filter (fun c => decide (c.name = n)), .mk nm (keep ++ rest.filter (fun c => decide (c.name ≠ n))) tx)
  | [], keep, acc, _ => by simp
  | c :: rest, keep, acc, h => by
    rw [List.foldl_cons]
    by_cases hc : c.name = n
    · have e : (Tag.mk nm (keep ++ c :: rest) tx).removeChild c = .mk nm (keep ++ rest) tx := by
        unfold removeChild; simp only [children, name, text]
        rw [erase_first (fun b hb => by rw [hc]; exact h b hb)]
      simp only [hc, if_true]
      rw [e, popIter_loop nm tx n rest keep _ h]
      simp [hc]
    · simp only [hc, if_false]
      have := popIter_loop nm tx n rest (keep ++ [c]) acc (by
        intro k hk; rcases List.mem_append.1 hk with hk | hk
        · exact h k hk
        · simp at hk; rw [hk]; exact hc)
      rw [List.append_assoc] at this
      simp only [List.singleton_append] at this
      rw [this]; simp [hc]

theorem popIter_eq (t : Tag) (n : Str) :
    t.popIter n = (t.children.filter (fun c => decide (c.name = n)),
      .mk t.name (t.children.filter (fun c => decide (c.name ≠ n))) t.text) := by
  cases t with
  | mk nm cs tx =>
    have := popIter_loop nm tx n cs [] [] (by simp)
    simp only [List.nil_append] at this
    unfold popIter
    exact this

end Tag
end Verif

namespace Verif
namespace Tag

theorem popFirst_fst (t : Tag) (n : Str) : (t.popFirst n).1 = t.children.find? (fun c => decide (c.name = n)) := by
  unfold popFirst
  cases h : t.children.find? (fun c => decide (c.name = n)) <;> simp

theorem popFirst_cases (t : Tag) (n : Str) :
    (t.popFirst n = (none, t) ∧ ∀ c ∈ t.children, c.name ≠ n) ∨
    ∃ before c after, t.children = before ++ c :: after ∧ (∀ b ∈ before, b.name ≠ n) ∧ c.name = n ∧
      t.popFirst n = (some c, .mk t.name (before ++ after) t.text) := by
  cases h : t.children.find? (fun c => decide (c.name = n)) with
  | none =>
    left
    have : ∀ c ∈ t.children, c.name ≠ n := by
      intro c hc; have := List.find?_eq_none.1 h c hc; simpa using this
    exact ⟨popFirst_none this, this⟩
  | some c =>
    right
    obtain ⟨hc, before, after, e, hb⟩ := List.find?_eq_some_iff_append.1 h
    have hb' : ∀ b ∈ before, b.name ≠ n := by intro b hb'; simpa using hb b hb'
    exact ⟨before, c, after, e, hb', by simpa using hc, popFirst_some e hb' (by simpa using hc)⟩

/-- popping one name does not change the first child of another name -/
theorem find?_popFirst {t : Tag} {n m : Str} (h : n ≠ m) :
    (t.popFirst n).2.children.find? (fun c => decide (c.name = m)) = t.children.find? (fun c => decide (c.name = m)) := by
  rcases popFirst_cases t n with ⟨e, _⟩ | ⟨before, c, after, hc, _, hn, e⟩
  · rw [e]
  · rw [e, hc]
    have : c.name ≠ m := by rw [hn]; exact h
    simp [children, List.find?_append, List.find?_cons, this]

theorem popFirst_text (t : Tag) (n : Str) : (t.popFirst n).2.text = t.text := by
  rcases popFirst_cases t n with ⟨e, _⟩ | ⟨_, _, _, _, _, _, e⟩ <;> rw [e] <;> rfl

theorem popFirst_length (t : Tag) (n : Str) : (t.popFirst n).2.children.length + (if (t.popFirst n).1.isSome then 1 else 0)
    = t.children.length := by
  rcases popFirst_cases t n with ⟨e, _⟩ | ⟨b, c, a, h, _, _, e⟩
  · rw [e]; simp
  · rw [e, h]; simp [children]; omega

end Tag

theorem endsWithSibilant_iff (s : Str) : endsWithSibilant s = true ↔
    ∃ stem, s = stem ++ c!"s" ∨ s = stem ++ c!"sh" ∨ s = stem ++ c!"ch" ∨ s = stem ++ c!"x" ∨ s = stem ++ c!"z" := by
  have suf : ∀ e : Str, e.reverse <+: s.reverse ↔ ∃ stem, s = stem ++ e := by
    intro e
    rw [List.reverse_prefix]
    exact ⟨fun ⟨t, h⟩ => ⟨t, h.symm⟩, fun ⟨t, h⟩ => ⟨t, h.symm⟩⟩
  unfold endsWithSibilant
  simp only [List.any_cons, List.any_nil, Bool.or_false, Bool.or_eq_true, decide_eq_true_eq, suf]
  constructor
  · rintro (⟨t, h⟩ | ⟨t, h⟩ | ⟨t, h⟩ | ⟨t, h⟩ | ⟨t, h⟩ | ⟨t, h⟩)
    · exact ⟨t, .inl h⟩
    · exact ⟨t ++ c!"s", .inl (by rw [h]; simp)⟩
    · exact ⟨t, .inr (.inl h)⟩
    · exact ⟨t, .inr (.inr (.inl h))⟩
    · exact ⟨t, .inr (.inr (.inr (.inl h)))⟩
    · exact ⟨t, .inr (.inr (.inr (.inr h)))⟩
  · rintro ⟨t, h | h | h | h | h⟩
    · exact .inl ⟨t, h⟩
    · exact .inr (.inr (.inl ⟨t, h⟩))
    · exact .inr (.inr (.inr (.inl ⟨t, h⟩)))
    · exact .inr (.inr (.inr (.inr (.inl ⟨t, h⟩))))
    · exact .inr (.inr (.inr (.inr (.inr ⟨t, h⟩))))

/-- What `handle_name_tag` computes, from the first `singular`, `plural` and `noplural` children. -/
theorem handleName_eq (strict : Bool) (tag : Tag) :
    handleName strict tag =
      (match tag.children.find? (fun c => decide (c.name = c!"singular")),
        tag.children.find? (fun c => decide (c.name = c!"plural")),
        tag.children.find? (fun c => decide (c.name = c!"noplural")) with
      | none, _, _ => .error .missingTag
      | some sing, pl, np => do
        pyAssert sing.children.isEmpty
        let plural := pl.map Tag.text
        let plural ← (match np with
          | some np => do
            pyAssert plural.isNone
            pyAssert (np.children.isEmpty && np.text.isEmpty)
            .ok plural
          | none => .ok (match plural with
            | some p => some p
            | none => some (sing.text ++ if endsWithSibilant sing.text then c!"es" else c!"s")))
        (if decide (tag.children.length ≠ 1 + (if pl.isSome then 1 else 0) + (if np.isSome then 1 else 0)) || !tag.text.isEmpty
          then unhandledContent strict else .ok ())
        .ok ⟨sing.text, plural⟩) := by
  have h1 := Tag.popFirst_fst tag c!"singular"
  have h2 := Tag.popFirst_fst (tag.popFirst c!"singular").2 c!"plural"
  have h3 := Tag.popFirst_fst ((tag.popFirst c!"singular").2.popFirst c!"plural").2 c!"noplural"
  rw [Tag.find?_popFirst (by decide)] at h2
  rw [Tag.find?_popFirst (by decide), Tag.find?_popFirst (by decide)] at h3
  have l1 := Tag.popFirst_length tag c!"singular"
  have l2 := Tag.popFirst_length (tag.popFirst c!"singular").2 c!"plural"
  have l3 := Tag.popFirst_length ((tag.popFirst c!"singular").2.popFirst c!"plural").2 c!"noplural"
  rw [h1] at l1; rw [h2] at l2; rw [h3] at l3
  have t3 : ((((tag.popFirst c!"singular").2).popFirst c!"plural").2.popFirst c!"noplural").2.text = tag.text := by
    rw [Tag.popFirst_text, Tag.popFirst_text, Tag.popFirst_text]
  unfold handleName
  simp only [h1, h2, h3, t3]
  generalize tag.children.find? (fun c => decide (c.name = c!"singular")) = o1 at *
  generalize tag.children.find? (fun c => decide (c.name = c!"plural")) = o2 at *
  generalize tag.children.find? (fun c => decide (c.name = c!"noplural")) = o3 at *
  generalize ((((tag.popFirst c!"singular").2).popFirst c!"plural").2.popFirst c!"noplural").2.children = l at *
  cases o1 with
  | none => rfl
  | some sing =>
    have hl : (!l.isEmpty) = decide (tag.children.length ≠ 1 + (if o2.isSome then 1 else 0) + (if o3.isSome then 1 else 0)) := by
      simp only [Option.isSome_some, if_true] at l1
      cases l with
      | nil => simp at l3 ⊢; omega
      | cons a l => simp at l3 ⊢; omega
    simp only [hl]
    rfl
end Verif

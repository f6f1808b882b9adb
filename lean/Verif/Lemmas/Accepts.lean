import Verif.Lemmas.ParserShift
import Verif.Lemmas.Numbers
/-!
# Acceptance depends on the kinds of the tokens only
-/

namespace Verif

theorem accepts_of_derives {nt : NT} {ts : List Token} {n : Node} (h : Derives nt ts n) : Accepts nt ts := by
  induction h with
  | int h1 h2 => exact .int h1
  | numInt _ ih => exact .numInt ih
  | numFloat h1 h2 => exact .numFloat h1
  | basicId h => exact .basicId h
  | basicParen h1 h2 _ ih => exact .basicParen h1 h2 ih
  | basicNum _ ih => exact .basicNum ih
  | logBasic _ ih => exact .logBasic ih
  | logLog h1 h2 _ ih => exact .logLog h1 h2 ih
  | powInt _ _ ih1 ih2 => exact .powInt ih1 ih2
  | powPlain _ ih => exact .powPlain ih
  | powRaise _ h _ ih1 ih2 => exact .powRaise ih1 h ih2
  | powUni _ h ih => exact .powUni ih h
  | prodPower _ ih => exact .prodPower ih
  | prodJuxt _ _ ih1 ih2 => exact .prodJuxt ih1 ih2
  | prodMul _ h _ ih1 ih2 => exact .prodMul ih1 h ih2
  | prodDiv _ h _ ih1 ih2 => exact .prodDiv ih1 h ih2
  | prodWs _ h1 h2 _ ih1 ih2 => exact .prodWs ih1 h1 h2 ih2
  | shiftProd _ ih => exact .shiftProd ih
  | shiftNum _ h1 h2 h3 _ ih1 ih2 => exact .shiftNum ih1 h1 h2 h3 ih2
  | shiftTime _ h1 h2 h3 h4 ih => exact .shiftTime ih h1 h2 h3 h4

/-- the number tokens can be converted -/
def Convertible (ts : List Token) : Prop :=
  ∀ t ∈ ts, (t.isInt → ∃ n, intNode t.text = some n) ∧ (t.kind = .FLOAT → ∃ n, floatNode t.text = some n)

theorem convertible_lex (s : Str) : Convertible (lex s) := by
  have h := (lex_iff s _).1 rfl
  intro t ht
  refine ⟨fun hi => ?_, fun hk => ?_⟩
  · obtain ⟨v, _, hv⟩ := lexed_int h ht hi
    exact ⟨_, hv⟩
  · obtain ⟨d, _, hd⟩ := lexed_float h ht hk
    exact ⟨_, hd⟩

theorem convertible_append {a b : List Token} : Convertible (a ++ b) ↔ Convertible a ∧ Convertible b := by
  unfold Convertible
  constructor
  · intro h
    exact ⟨fun t ht => h t (List.mem_append_left _ ht), fun t ht => h t (List.mem_append_right _ ht)⟩
  · rintro ⟨h1, h2⟩ t ht
    rcases List.mem_append.1 ht with ht | ht
    · exact h1 t ht
    · exact h2 t ht

theorem derives_of_accepts {nt : NT} {ts : List Token} (h : Accepts nt ts) (hc : Convertible ts) : ∃ n, Derives nt ts n := by
  induction h with
  | int h1 =>
    obtain ⟨n, hn⟩ := (hc _ (List.mem_singleton.2 rfl)).1 h1
    exact ⟨_, .int h1 hn⟩
  | numInt _ ih => obtain ⟨n, h⟩ := ih hc; exact ⟨_, .numInt h⟩
  | numFloat h1 =>
    obtain ⟨n, hn⟩ := (hc _ (List.mem_singleton.2 rfl)).2 h1
    exact ⟨_, .numFloat h1 hn⟩
  | basicId h => exact ⟨_, .basicId h⟩
  | basicParen h1 h2 _ ih =>
    simp only [convertible_append] at hc
    obtain ⟨n, h⟩ := ih hc.1.2; exact ⟨_, .basicParen h1 h2 h⟩
  | basicNum _ ih => obtain ⟨n, h⟩ := ih hc; exact ⟨_, .basicNum h⟩
  | logBasic _ ih => obtain ⟨n, h⟩ := ih hc; exact ⟨_, .logBasic h⟩
  | logLog h1 h2 _ ih =>
    simp only [convertible_append] at hc
    obtain ⟨n, h⟩ := ih hc.1.2; exact ⟨_, .logLog h1 h2 h⟩
  | powInt _ _ ih1 ih2 =>
    simp only [convertible_append] at hc
    obtain ⟨n, h⟩ := ih1 hc.1; obtain ⟨m, h'⟩ := ih2 hc.2; exact ⟨_, .powInt h h'⟩
  | powPlain _ ih => obtain ⟨n, h⟩ := ih hc; exact ⟨_, .powPlain h⟩
  | powRaise _ ho _ ih1 ih2 =>
    simp only [convertible_append] at hc
    obtain ⟨n, h⟩ := ih1 hc.1.1; obtain ⟨m, h'⟩ := ih2 hc.2; exact ⟨_, .powRaise h ho h'⟩
  | powUni _ ho ih =>
    simp only [convertible_append] at hc
    obtain ⟨n, h⟩ := ih hc.1; exact ⟨_, .powUni h ho⟩
  | prodPower _ ih => obtain ⟨n, h⟩ := ih hc; exact ⟨_, .prodPower h⟩
  | prodJuxt _ _ ih1 ih2 =>
    simp only [convertible_append] at hc
    obtain ⟨n, h⟩ := ih1 hc.1; obtain ⟨m, h'⟩ := ih2 hc.2; exact ⟨_, .prodJuxt h h'⟩
  | prodMul _ ho _ ih1 ih2 =>
    simp only [convertible_append] at hc
    obtain ⟨n, h⟩ := ih1 hc.1.1; obtain ⟨m, h'⟩ := ih2 hc.2; exact ⟨_, .prodMul h ho h'⟩
  | prodDiv _ ho _ ih1 ih2 =>
    simp only [convertible_append] at hc
    obtain ⟨n, h⟩ := ih1 hc.1.1; obtain ⟨m, h'⟩ := ih2 hc.2; exact ⟨_, .prodDiv h ho h'⟩
  | prodWs _ h1 h2 _ ih1 ih2 =>
    simp only [convertible_append] at hc
    obtain ⟨n, h⟩ := ih1 hc.1.1; obtain ⟨m, h'⟩ := ih2 hc.2; exact ⟨_, .prodWs h h1 h2 h'⟩
  | shiftProd _ ih => obtain ⟨n, h⟩ := ih hc; exact ⟨_, .shiftProd h⟩
  | shiftNum _ h1 h2 h3 _ ih1 ih2 =>
    simp only [convertible_append] at hc
    obtain ⟨n, h⟩ := ih1 hc.1.1.1.1; obtain ⟨m, h'⟩ := ih2 hc.2; exact ⟨_, .shiftNum h h1 h2 h3 h'⟩
  | shiftTime _ h1 h2 h3 h4 ih =>
    simp only [convertible_append] at hc
    obtain ⟨n, h⟩ := ih hc.1.1.1.1; exact ⟨_, .shiftTime h h1 h2 h3 h4⟩

/-- a token sequence derivable as a product reads as one, with the graph the parser returns -/
theorem reads_product {a : List Token} {l : Node} (h : ∃ m, Derives .product a m) (hp : parseTokens a = .ok l) :
    ∃ p, Reads (.product p) a l := by
  obtain ⟨m, h⟩ := h
  obtain ⟨nt, m', he, hm⟩ := reads_of_derives h
  cases nt <;> first | (cases he; done) | skip
  have := (parseTokens_iff a m').2 (Or.inl (.shiftProd hm))
  rw [hp] at this
  cases this
  exact ⟨_, hm⟩

theorem reads_power {a : List Token} {l : Node} (h : ∃ m, Derives .power a m) (hp : parseTokens a = .ok l) :
    ∃ p, Reads (.power p) a l := by
  obtain ⟨m, h⟩ := h
  obtain ⟨nt, m', he, hm⟩ := reads_of_derives h
  cases nt <;> first | (cases he; done) | skip
  have := (parseTokens_iff a m').2 (Or.inl (.shiftProd (.prodPower hm)))
  rw [hp] at this
  cases this
  exact ⟨_, hm⟩

theorem reads_log {a : List Token} {l : Node} (h : ∃ m, Derives .logarithm a m) (hp : parseTokens a = .ok l) :
    Reads .logarithm a l := by
  obtain ⟨m, h⟩ := h
  obtain ⟨nt, m', he, hm⟩ := reads_of_derives h
  cases nt <;> first | (cases he; done) | skip
  have := (parseTokens_iff a m').2 (Or.inl (.shiftProd (.prodPower (.powPlain hm))))
  rw [hp] at this
  cases this
  exact hm

end Verif

import Verif.Props.Lexer
import Verif.Lemmas.ReadBack
/-! C52, exactly: which strings stay one string literal each. -/
namespace Verif.Props
open Verif Verif.Lex Verif.Query Verif.Bind Verif.Spec Verif.Lemmas

theorem woven_mem {p : Str} {ps vs : List Str} {ts : List Token} (h : Woven rules p ps vs ts) :
    ∀ v, v ∈ vs → (⟨.STRING_LITERAL, '\'' :: v ++ ['\'']⟩ : Token) ∈ ts := by
  induction h with
  | last => intro v hv; cases hv
  | more p p₁ ps s ss ts us _ _ ih =>
    intro v hv
    rcases List.mem_cons.mp hv with rfl | hv
    · simp
    · exact List.mem_append_right _ (List.mem_cons_of_mem _ (ih v hv))

/-- C52, exactly: in a query whose text up to the last placeholder contains no quotation and no comment, and whose placeholders
do not touch each other and do not follow an `x`, the strings that are bound to the placeholders, all without question marks but the last,
are each read as one string literal with the bound string as its value if and only if in every one of them quotes only
occur doubled, and none begins or ends with a quote character. -/
theorem C52_iff {T F V : Type} (B : BEnv T F V) (p : Str) (ps vs : List Str)
    (hlen : vs.length = ps.length) (hne : p ≠ []) (hq : '?' ∉ p) (hqs : ∀ x, x ∈ ps → '?' ∉ x)
    (hp : ∀ x, x ∈ (p :: ps).dropLast → NoQuotation x ∧ ∀ u c, x = u ++ [c] → Str.upC c ≠ 'X')
    (hps : ∀ x, x ∈ ps.dropLast → x ≠ []) (hl : ∀ x, ps.getLast? = some x → quoteEnd x = true)
    (hv : ∀ v, v ∈ vs.dropLast → '?' ∉ v) :
    (∃ q ts, bindText B (marked p ps) (vs.map .str) = some q ∧ lex q = some ts ∧ Woven rules p ps vs ts ∧
      ∀ v, v ∈ vs → Util.unEscapeString ('\'' :: v ++ ['\'']) = v) ↔ ∀ v, v ∈ vs → QuotesPaired v ∧ BareEnds v := by
  have hb := (C50_bind_partial B (fun s => some s) p ps (vs.map .str) (vs.map (fun v => '\'' :: v ++ ['\''])) hne hq hqs
    (by simp [Param.text]) (by
      intro x hx
      rw [← List.map_dropLast] at hx
      obtain ⟨v, hm, rfl⟩ := List.mem_map.mp hx
      have := hv v hm
      simpa using this) (by simp [hlen])).1
  have hu : ∀ v : Str, Util.unEscapeString ('\'' :: v ++ ['\'']) = v ↔ BareEnds v := by
    intro v
    rw [← bareEnds_iff]
    simp [Util.escapeString]
  constructor
  · rintro ⟨q, ts, -, h2, h3, h4⟩ v hm
    refine ⟨?_, (hu v).mp (h4 v hm)⟩
    obtain ⟨rest, -, hf, -⟩ := tokenised_lexed ((lex_iff _ _).mp h2) _ (woven_mem h3 v hm)
    rw [List.cons_append, ← firstRule_step, step_quote, firstRule_cons] at hf
    rcases hf with ⟨-, hf⟩ | ⟨-, hf⟩
    · obtain ⟨b, e, hd⟩ := (matches_body _ _).mp hf
      rw [(List.append_inj' e rfl).1]
      exact (doubled_iff b).mp hd
    · obtain ⟨pre, r, post, e, -⟩ := hf
      cases pre with
      | nil => cases e
      | cons => simp at e
  · intro h
    obtain ⟨ts, h1, h2⟩ := lex_filled p ps vs hlen hp hps hl (fun v hm => (h v hm).1)
    exact ⟨_, ts, hb, h1, h2, fun v hm => (hu v).mpr (h v hm).2⟩

set_option maxRecDepth 10000 in
example : (s%"a = " ≠ [] ∧ NoQuotation s%"a = " ∧ NoQuotation s%" AND b = " ∧ quoteEnd s%" -- 'x'" = true) ∧
    (QuotesPaired s%"it''s" ∧ BareEnds s%"it''s") ∧ ¬ QuotesPaired s%"it's" ∧ ¬ BareEnds s%"''" ∧
    bindText bEnv (marked s%"a = " [s%" AND b = ", s%" -- 'x'"]) [.str s%"it''s", .str s%"q?"] =
      some s%"a = 'it''s' AND b = 'q?' -- 'x'" ∧
    (lex s%"a = 'it''s' AND b = 'q?' -- 'x'").map (fun ts => (ts.filter (fun t => t.kind == .STRING_LITERAL)).map (·.text)) =
      some [s%"'it''s'", s%"'q?'"] := by
  refine ⟨⟨by simp, by unfold NoQuotation; decide, by unfold NoQuotation; decide, by decide⟩, ⟨?_, ?_⟩, ?_, ?_, by decide +kernel, by decide +kernel⟩
  · rw [← doubled_iff]; decide
  · rw [← bareEnds_iff]; decide +kernel
  · rw [← doubled_iff]; decide
  · rw [← bareEnds_iff]; decide +kernel

end Verif.Props

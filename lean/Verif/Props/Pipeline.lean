import Verif.Lemmas.Pipeline
import Verif.Lemmas.Others
import Verif.Props.SelectWritten
import Verif.Props.HelpersRow
import Verif.Props.Aggr
import Verif.Props.RsAggr
/-! From the text of a SELECT to aggregates: C174. -/
namespace Verif.Props
open Verif Verif.Lex Verif.Gram Verif.Query Verif.Parse Verif.Spec Verif.Lemmas Verif.Fn Verif.Rs
variable {V F T : Type}

private theorem pick_sel {p : List Token} {s : Selector} {i : Pick} (h : SelTokens p s) (hi : PickTokens p i) : (selOf s : Sel V F T) = i.sel := by
  cases hi with
  | name t ht =>
    generalize hp : [t] = q at h
    cases h with
    | col _ _ => subst hp; simp [selOf, Pick.sel, Spec.textOf]
    | call n o body c rest f =>
      have := congrArg List.length hp
      simp at this
      omega
  | call n o body c rest args hn ho hc hb hr ha hd =>
    obtain ⟨f, rfl, hf, ht, hargs⟩ := C135_call n o c body rest s hn ho hc hb hr h
    rw [selOf, Pick.sel, newFunction, hf, args_unique hargs ha hd, type_unique ht (named_type n.text)]

/-- C174: the selectors of a reported SELECT are those of its written selection list: for a list of names and calls, in
any number and order, the functions are the ones made with the written name and arguments. -/
theorem C174_selectors (cols : List Token) (ss : List Selector) (ps : List Pick) (h : Sep SelTokens cols ss) (hp : Sep PickTokens cols ps) :
    ss.map (selOf (V := V) (F := F) (T := T)) = ps.map Pick.sel := by
  have hb := sep_both h hp
  clear h hp
  induction hb with
  | nil => rfl
  | cons h _ ih => obtain ⟨p, _, h1, h2⟩ := h; rw [List.map_cons, List.map_cons, ih, pick_sel h1 h2]

/-- The tokens of `b, Sum(a) AS s`. -/
def exPicks : List Token :=
  [⟨.IDENTIFIER, s%"b"⟩, ⟨.COMMA, s%","⟩, ⟨.IDENTIFIER, s%"Sum"⟩, ⟨.OPEN_PAR, s%"("⟩, ⟨.IDENTIFIER, s%"a"⟩, ⟨.CLOSE_PAR, s%")"⟩, ⟨.AS_, s%"AS"⟩, ⟨.IDENTIFIER, s%"s"⟩]

/-- The tokens of `SUM(a)`. -/
def exSum : List Token := [⟨.IDENTIFIER, s%"SUM"⟩, ⟨.OPEN_PAR, s%"("⟩, ⟨.IDENTIFIER, s%"a"⟩, ⟨.CLOSE_PAR, s%")"⟩]

private theorem exArgs : ArgTokens [⟨.IDENTIFIER, s%"a"⟩] [s%"a"] := .list [] _ _ (Or.inl rfl) (.one _ _ (clear_part (by decide) (by decide)) rfl)

private theorem exBalanced : Balanced [⟨.IDENTIFIER, s%"a"⟩] := (clear_part (by decide) (by decide)).2.1

example : Sep PickTokens exPicks [.name s%"b", .call s%"Sum" [s%"a"]] :=
  .cons [_] _ _ _ _ (clear_part (by decide) (by decide)) (.name _ rfl) rfl
    (.one _ _ (clear_part (by decide) (by decide))
      (.call ⟨.IDENTIFIER, s%"Sum"⟩ _ [_] _ _ _ rfl rfl rfl exBalanced (by intro t r h; cases h; simp) exArgs (by intro t r h; cases h; simp)))

private theorem exSum_pick : Sep PickTokens exSum [.call s%"SUM" [s%"a"]] :=
  .one _ _ (clear_part (by decide) (by decide))
    (.call ⟨.IDENTIFIER, s%"SUM"⟩ _ [_] _ [] _ rfl rfl rfl exBalanced (by intro t r h; cases h) exArgs (by intro t r h; cases h; simp))

private theorem exSum_sel : Sep SelTokens exSum [.fn { typ := .aggregate, name := s%"SUM", args := [s%"a"] }] :=
  .one _ _ (clear_part (by decide) (by decide))
    (.call [_] _ [⟨.IDENTIFIER, s%"a"⟩] _ [] _ (Or.inl ⟨_, rfl⟩) rfl rfl exBalanced (by intro t r h; cases h) exArgs (by decide) (Or.inl (by decide)) rfl rfl)

/-- The tokens of a reported SELECT up to its selection list, and the selectors that the list stands for. -/
def Picked (V F T : Type) (own : List Token) (st : Statement) : Prop :=
  ∀ x, st = .select x → x.selectors = [] ∨ ∃ wth w d cols rest, own = wth ++ w :: (d ++ (cols ++ rest)) ∧ WithTokens wth ∧ w.kind = .SELECT_ ∧
    (d = [] ∨ ∃ t, d = [t] ∧ t.kind ∈ [Tok.DISTINCT_, .ALL_]) ∧ Sep SelTokens cols x.selectors ∧
    ∀ ps, Sep PickTokens cols ps → x.selectors.map (selOf (V := V) (F := F) (T := T)) = ps.map Pick.sel

/-- C174 for queries: in every accepted query, the tokens behind the SELECT of a reported statement are a selection list,
and if it is a list of names and calls, the statement's selectors are the ones it stands for. A statement without
selectors is VALUES. -/
theorem C174_query (toUint : Str → Option Nat) (q : Str) (l : List Statement) (h : parseQuery toUint q = .ok l) :
    ∃ toks, Writes q toks ∧ Pieces (Picked V F T) toks l := by
  obtain ⟨toks, h1, h2⟩ := C135_select_partial toUint q l h
  refine ⟨toks, h1, pieces_weaken (fun own st hw x hs => ?_) h2⟩
  obtain ⟨wth, core, comp, ord, lim, ho, hwth, -, hcore, -⟩ := hw x hs
  rcases hcore with ⟨-, hs, -⟩ | ⟨w, d, cols, frm, whr, grp, win, hc, hw, hd, hsel, -⟩
  · exact .inl hs
  · refine .inr ⟨wth, w, d, cols, frm ++ (whr ++ (grp ++ win)) ++ (comp ++ (ord ++ lim)), ?_, hwth, hw, hd, hsel, fun ps hp => C174_selectors cols _ ps hsel hp⟩
    rw [ho, hc]
    simp

set_option maxRecDepth 10000 in
example : parseQuery (fun _ => none) s%"SELECT b, Sum(a) AS s FROM t" =
    .ok [.select { selectors := [.col { name := s%"b" }, .fn { typ := .unknown, name := s%"SUM", args := [s%"a"] }], tables := [{ name := s%"t" }], cond := none }] := by krfl

/-- The calls of a selection list. -/
def Pick.isCall : Pick → Bool
  | .name _ => false
  | .call .. => true

private theorem for_name (k : AggrId) : newAggregatorForName k.name = some k := by cases k <;> decide

private theorem up_name (k : AggrId) : Str.upper k.name = k.name := by cases k <;> decide

private theorem fresh_values (E : Env V F) (k : AggrId) (args : List Str) (ha : args ≠ []) (rows : List (List (Option V))) (m : List (List F))
    (hm : Pairwise2 (Nums E) rows m) (hl : ∀ r, r ∈ rows → r.length = args.length) :
    ∃ b', feed E (freshAggr E k args []) rows = some b' ∧ ∀ ch ob, ∃ row, b'.finalize E ch ob = some { columns := args.map (callText k.name), rows := [row] } ∧
      row.length = args.length ∧ ∀ j, j < args.length → row[j]? = some (aggValue E k (column j m)) := by
  have hs : Started E (freshAggr E k args []) := .inr ⟨k, [.args args], by rw [newAggr_args, if_neg ha]⟩
  have hf := started_fresh hs
  have hc : (freshAggr E k args []).columns = args.map (callText k.name) := by simp [freshAggr]
  obtain ⟨b', hb⟩ := (C26_accepted E _ hs rfl rows).mpr fun r hr => by
    obtain ⟨ns, _, hn⟩ := pairwise2_left hm r hr
    exact ⟨by rw [hc, List.length_map, hl r hr], ns, hn⟩
  refine ⟨b', hb, fun ch ob => ?_⟩
  obtain ⟨row, h1, h2, h3⟩ := ungrouped_result hf rfl rows hb ch ob m hm
  rw [hc] at h1 h2 h3
  rw [List.length_map] at h2 h3
  exact ⟨row, h1, h2, h3⟩

/-- C174 for the aggregators of a SELECT without GROUP BY: when all calls of the written selection list are calls of
aggregate functions with arguments, their names in any letter case, then `Aggregators` gives one aggregator for each, in
order. Given any rows with a number or null for each argument, it accepts them, and its result is one row with, for each
argument, the aggregate of the numbers, named by the call. -/
theorem C174_aggregates (E : Env V F) (cols : List Token) (ss : List Selector) (ps : List Pick) (h : Sep SelTokens cols ss) (hp : Sep PickTokens cols ps)
    (ks : List (AggrId × List Str)) (hk : Pairwise2 (fun i k => Pick.Aggregate i k.1 k.2) (ps.filter Pick.isCall) ks) :
    ∃ as, selectAggregators E (ss.map (selOf (V := V) (F := F) (T := T))) [] = some as ∧
      Pairwise2 (fun k a => ∀ (rows : List (List (Option V))) (m : List (List F)), Pairwise2 (Nums E) rows m → (∀ r, r ∈ rows → r.length = k.2.length) →
        ∃ b', feed E a rows = some b' ∧ ∀ ch ob, ∃ row, b'.finalize E ch ob = some { columns := k.2.map (callText k.1.name), rows := [row] } ∧
          row.length = k.2.length ∧ ∀ j, j < k.2.length → row[j]? = some (aggValue E k.1 (column j m))) ks as := by
  rw [C174_selectors cols ss ps h hp]
  clear h hp
  have hfn : ∀ (qs : List Pick) (ks : List (AggrId × List Str)), Pairwise2 (fun i k => Pick.Aggregate i k.1 k.2) (qs.filter Pick.isCall) ks →
      Pointwise (fun (f : Func V F T) a => f.args ≠ [] ∧ ∃ k, newAggregatorForName f.name = some k ∧ newAggr E k [.args f.args, .groupBys [[]]] = some a)
        (selFunctions (qs.map Pick.sel)) (ks.map fun k => freshAggr E k.1 k.2 []) := by
    intro qs
    induction qs with
    | nil => intro ks hk; cases hk; exact .nil
    | cons i qs ih =>
      intro ks hk
      cases i with
      | name n => exact ih ks hk
      | call n args =>
        simp only [List.filter_cons, Pick.isCall, if_true] at hk
        cases hk with
        | @cons _ k _ ks' hik hk =>
          obtain ⟨n', he, hn, ha⟩ := hik
          cases he
          refine .cons ⟨ha, k.1, ?_, ?_⟩ (ih _ hk)
          · show newAggregatorForName (Str.upper n) = _
            rw [hn, for_name]
          · show newAggr E k.1 [.args k.2, .groupBys [[]]] = _
            rw [newAggr_args_group E k.1 _ _ ha]
            rfl
  refine ⟨_, (C110_aggregators E _ [] _).mpr (hfn ps ks hk), ?_⟩
  have hne : ∀ k, k ∈ ks → k.2 ≠ [] := by
    intro k hmem
    obtain ⟨i, _, n, _, _, h⟩ := pairwise2_right hk k hmem
    exact h
  clear hfn hk
  induction ks with
  | nil => exact .nil
  | cons k ks ih => exact .cons (fresh_values E k.1 k.2 (hne k (by simp))) (ih fun k hk => hne k (by simp [hk]))

/-- One aggregate function, and a row for it. -/
example : Sep SelTokens exSum [.fn { typ := .aggregate, name := s%"SUM", args := [s%"a"] }] ∧ Sep PickTokens exSum [.call s%"SUM" [s%"a"]] ∧
    Pairwise2 (fun i k => Pick.Aggregate i k.1 k.2) ([Pick.call s%"SUM" [s%"a"]].filter Pick.isCall) [(.sum, [s%"a"])] ∧
    Pairwise2 (Nums exEnv) [[some (.n 3)], [none]] [[3], [0]] :=
  ⟨exSum_sel, exSum_pick, .cons ⟨_, rfl, by decide, by simp⟩ .nil, .cons (.cons (.val rfl) .nil) (.cons (.cons .nil .nil) .nil)⟩

/-- C174 for `HasAggregator`: a SELECT has an aggregator exactly if a written call has the name of an aggregate function
in upper case. -/
theorem C174_has_aggregator_iff (cols : List Token) (ss : List Selector) (ps : List Pick) (h : Sep SelTokens cols ss) (hp : Sep PickTokens cols ps) :
    Rs.hasAggregator (ss.map (selOf (V := V) (F := F) (T := T))) = true ↔ ∃ k : AggrId, ∃ args, Pick.call k.name args ∈ ps := by
  rw [C174_selectors cols ss ps h hp, Rs.hasAggregator, List.any_eq_true]
  constructor
  · rintro ⟨x, hx, ht⟩
    obtain ⟨i, hi, rfl⟩ := List.mem_map.mp hx
    cases i with
    | name n => cases ht
    | call n args =>
      have ht : (newFunctionTypeForName n).getD .unknown = .aggregate := by simpa [Pick.sel, newFunction] using ht
      rcases named_type n with hd | ⟨hu, -⟩
      · rw [ht] at hd
        have : ∀ p, p ∈ documented → p.2 = .aggregate → p.1 ∈ [AggrId.sum.name, AggrId.avg.name, AggrId.min.name, AggrId.max.name, AggrId.count.name] := by decide +kernel
        have := this _ hd rfl
        simp only [List.mem_cons, List.not_mem_nil, or_false] at this
        rcases this with rfl | rfl | rfl | rfl | rfl
        all_goals exact ⟨_, _, hi⟩
      · rw [ht] at hu; cases hu
  · rintro ⟨k, args, hi⟩
    refine ⟨_, List.mem_map_of_mem hi, ?_⟩
    have : (newFunctionTypeForName k.name).getD .unknown = .aggregate := by cases k <;> decide
    simp [Pick.sel, newFunction, this]

/-- C174 fails for other letter cases: when no call of the written selection list has the name of an aggregate function in
upper case, `select sum(a)` for instance, the aggregated result set of the SELECT is the source itself, with all of its
rows. -/
theorem C174_case_fails (R : REnv V F T) (typed : Func V F T → Bool) (chs : List Choice) (fuel : Nat) (tblName : Str) (tbl : List (Col V F T))
    (cols : List Token) (ss : List Selector) (ps : List Pick) (h : Sep SelTokens cols ss) (hp : Sep PickTokens cols ps)
    (hl : ∀ (k : AggrId) args, Pick.call k.name args ∉ ps) (groupBy : Option Str) (src : RSet V F T) :
    newAggregatedResultSet R typed chs fuel tblName tbl (ss.map selOf) groupBy src = some (.ok src) := by
  have : Rs.hasAggregator (ss.map (selOf (V := V) (F := F) (T := T))) = false := by
    cases hh : Rs.hasAggregator (ss.map (selOf (V := V) (F := F) (T := T))) with
    | false => rfl
    | true =>
      obtain ⟨k, args, hi⟩ := (C174_has_aggregator_iff cols ss ps h hp).mp hh
      exact absurd hi (hl k args)
  rw [newAggregatedResultSet, this]
  rfl

/-- `Sum` is not the name in upper case. -/
example : ∀ (k : AggrId) args, Pick.call k.name args ∉ [Pick.name s%"b", .call s%"Sum" [s%"a"]] := by
  intro k args h
  simp only [List.mem_cons, reduceCtorEq, Pick.call.injEq, List.not_mem_nil, or_false, false_or] at h
  revert h
  exact fun h => absurd h.1 (by cases k <;> decide)

/-- C174 for the aggregated result set of a SELECT of names and one call of an aggregate function, in upper case and with
one argument, without GROUP BY: it has exactly one row, whose value under the text of the call is the aggregate of the
source's numbers under the argument name, or of all rows for `*`. What is missing: two aggregate functions and grouping,
for which the code fails (C49), and other letter cases (`C174_case_fails`). -/
theorem C174_result_partial (R : REnv V F T) (typed : Func V F T → Bool) (ch : Choice) (tblName : Str) (tbl : List (Col V F T)) (toks : List Token)
    (ss : List Selector) (pre post : List Str) (k : AggrId) (x : Str) (h : Sep SelTokens toks ss)
    (hp : Sep PickTokens toks (pre.map Pick.name ++ [Pick.call k.name [x]] ++ post.map Pick.name)) (cols : List (Col V F T))
    (hcols : schemaColumns typed tbl ((pre.map Pick.name ++ [Pick.call k.name [x]] ++ post.map Pick.name).map Pick.sel) = some cols)
    (htbl : ∀ c ∈ tbl, c.fn = none ∧ c.name ≠ callText k.name x)
    (src : RSet V F T) (hsch : src.schema.isSome = true) (hcur : src.cursor = 0) (ho : src.offset + 1 < 2 ^ 64)
    (hl : src.offset + src.limit < 2 ^ 64) (hlen : src.rows.length < 2 ^ 63)
    (rows : List (Row V F T)) (hrows : window src.offset src.limit (allRows R src) = rows.map .ok)
    (vs : List (Option V)) (ns : List F) (hvs : Pairwise2 (fun r v => (if x = s%"*" then some none else r.getObject.2.get? x) = some v) rows vs)
    (hns : Nums R.E vs ns) (fuel : Nat) (hfuel : rows.length < fuel) :
    ∃ out row, newAggregatedResultSet R typed [ch] fuel tblName tbl (ss.map selOf) none src = some (.ok out) ∧
      (∃ out', Loop RSet.next (RSet.row R) out [.ok row] out') ∧ (row.valueBy (callText k.name x)).2 = .ok (R.boxC (aggValue R.E k ns)) := by
  have hs : (pre.map Pick.name ++ [Pick.call k.name [x]] ++ post.map Pick.name).map (Pick.sel (V := V) (F := F) (T := T)) =
      pre.map Sel.col ++ [Sel.fn (newFunction k.name [x])] ++ post.map Sel.col := by
    have hf : (Pick.sel (V := V) (F := F) (T := T)) ∘ Pick.name = Sel.col := rfl
    simp only [List.map_append, List.map_map, List.map_cons, List.map_nil, hf]
    rfl
  rw [hs] at hcols
  obtain ⟨out, row, h1, h2, h3, -⟩ := C49_single_partial R typed ch tblName tbl pre post (newFunction k.name [x]) k x (up_name k) rfl
    (by cases k <;> rfl) rfl cols hcols (by rw [show (newFunction (V := V) (F := F) (T := T) k.name [x]).name = k.name from up_name k]; exact htbl) src hsch hcur ho hl hlen rows hrows vs ns hvs hns fuel hfuel
  refine ⟨out, row, ?_, h2, ?_⟩
  · rw [C174_selectors toks ss _ h hp, hs]; exact h1
  · rw [show (newFunction (V := V) (F := F) (T := T) k.name [x]).name = k.name from up_name k] at h3
    exact h3

/-- A source for `SUM(a)`: the schema and the rows meet the conditions. -/
example : Sep PickTokens exSum (([] : List Str).map Pick.name ++ [Pick.call AggrId.sum.name [s%"a"]] ++ ([] : List Str).map Pick.name) ∧
    (∃ cols, schemaColumns (fun _ => true) rSchema.columns ((([] : List Str).map Pick.name ++ [Pick.call AggrId.sum.name [s%"a"]] ++ ([] : List Str).map Pick.name).map Pick.sel) = some cols) ∧
    (∀ c ∈ rSchema.columns, c.fn = none ∧ c.name ≠ callText AggrId.sum.name s%"a") ∧
    ∃ rows : List (Row Int Int Unit), window (rSet 0 0).offset (rSet 0 0).limit (allRows rEnv (rSet 0 0)) = rows.map .ok ∧ rows.length = 3 :=
  ⟨exSum_pick, ⟨_, rfl⟩, by decide, [_, _, _], rfl, rfl⟩

/-- C174 for other functions: a written call, in any letter case, whose name the executors know has an executor, and its
value on a row is the value of the function of that name on the values of the written arguments: the row's value under
the argument, or the text of the argument where the row has none. -/
theorem C174_values (env : XEnv V F T) (cols : List Token) (ss : List Selector) (ps : List Pick) (h : Sep SelTokens cols ss) (hp : Sep PickTokens cols ps)
    (i : Nat) (n : Str) (args : List Str) (hi : ps[i]? = some (.call n args)) (hk : (newExecutorForName n).isSome) :
    ∃ f ex, (ss.map (selOf (V := V) (F := F) (T := T)))[i]? = some (.fn f) ∧ (f.getExecutor env []).2 = some ex ∧
      ∀ (m : GoMap Str (Option V)) (vals : List (Option V)), m.keys.Nodup → ArgsFrom env.ofText m args vals →
        ex.execute env (.map m) = executeFunction env n (.args vals) := by
  obtain ⟨id, hid⟩ := Option.isSome_iff_exists.mp hk
  have hup : newExecutorForName (Str.upper n) = some id := by
    rw [← hid]
    unfold newExecutorForName
    rw [Str.upper_upper]
  refine ⟨newFunction n args, newExec env id [.args args], ?_, ?_, fun m vals hn hv => ?_⟩
  · rw [C174_selectors cols ss ps h hp, List.getElem?_map, hi]; rfl
  · show (match newExecutorForName (Str.upper n) with
      | none => (newFunction n args, none)
      | some id => (({ (newFunction n args) with executor := some (newExec env id [.args args]), type := (newExec env id [.args args]).type } : Func V F T), some (newExec env id [.args args]))).2 = _
    rw [hup]
  · rw [(C44_object env _ m hn vals hv).1, (C44_by_name env id args).2, executeFunction, hid]

/-- A function and a row. -/
example : (newExecutorForName s%"abs").isSome ∧ ArgsFrom xEnv.ofText [(s%"x", some (7 : Int))] [s%"x"] [some 7] := by
  refine ⟨by decide, rfl, ?_⟩
  intro i a v ha hv
  cases i with
  | zero => cases ha; cases hv; exact Or.inl (by simp)
  | succ i => cases ha

end Verif.Props

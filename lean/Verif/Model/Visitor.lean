import Verif.Model.Parser
import Verif.Model.Query
import Verif.Model.Exec
/-! The visitor that turns parse trees into statements (sql/parser/sqlite/parser_antlr_visitor.go) and the parser's
entry point (sql/parser/sqlite/parser_antlr.go). -/
namespace Verif.Gram
open Verif Verif.Lex

mutual
/-- `GetText`: the texts of all tokens below, without anything between them.
As used by parser_antlr_visitor.go 37-709. -/
def Tree.text : Tree → Str
  | .leaf t => t.text
  | .node _ cs => textAll cs
  | .lab _ cs => textAll cs
  | .seg cs => textAll cs
/-- The texts of a list of trees. As used by parser_antlr_visitor.go 37-709. -/
def textAll : List Tree → Str
  | [] => []
  | t :: r => t.text ++ textAll r
end

/-- The children with the labels taken off (labels are fields of the context in Go, the labelled children are
ordinary children). As used by parser_antlr_visitor.go 37-709. -/
def unlab : List Tree → List Tree
  | [] => []
  | .lab _ cs :: r => cs ++ unlab r
  | .leaf t :: r => .leaf t :: unlab r
  | .node q cs :: r => .node q cs :: unlab r
  | .seg cs :: r => .seg cs :: unlab r

/-- `GetChildren` of a rule context. As used by parser_antlr_visitor.go 37-709. -/
def Tree.kids : Tree → List Tree
  | .node _ cs => unlab cs
  | _ => []

/-- Is the tree a context of rule `r`?. As used by parser_antlr_visitor.go 37-709. -/
def Tree.isRule (r : Rule) : Tree → Bool
  | .node q _ => decide (q = r)
  | _ => false

/-- Is the tree a token of kind `k`?. As used by parser_antlr_visitor.go 37-709. -/
def Tree.isTok (k : Tok) : Tree → Bool
  | .leaf t => decide (t.kind = k)
  | _ => false

/-- Generated accessors `AllX()`. As used by parser_antlr_visitor.go 37-709. -/
def Tree.all (r : Rule) (t : Tree) : List Tree := t.kids.filter (Tree.isRule r)
/-- Generated accessors `X()` of rules: the first child of the rule, or nil.
As used by parser_antlr_visitor.go 37-709. -/
def Tree.child (r : Rule) (t : Tree) : Option Tree := t.kids.find? (Tree.isRule r)
/-- Generated accessors `X()` of tokens: the first such token, or nil. As used by parser_antlr_visitor.go 37-709. -/
def Tree.token (k : Tok) (t : Tree) : Option Tree := t.kids.find? (Tree.isTok k)

/-- What is labelled `l`. As used by parser_antlr_visitor.go 37-709. -/
def labelled (l : Lab) : List Tree → List Tree
  | [] => []
  | .lab k cs :: r => if k = l then cs ++ labelled l r else labelled l r
  | .leaf _ :: r => labelled l r
  | .node _ _ :: r => labelled l r
  | .seg _ :: r => labelled l r

/-- Generated accessors `GetX()` of list labels (`+=`). As used by parser_antlr_visitor.go 37-709. -/
def Tree.labels (l : Lab) : Tree → List Tree
  | .node _ cs => labelled l cs
  | _ => []
/-- Generated accessors `GetX()` of labels (`=`). As used by parser_antlr_visitor.go 37-709. -/
def Tree.label (l : Lab) (t : Tree) : Option Tree := (t.labels l).head?

end Verif.Gram

namespace Verif

/-- Sequencing of Go calls. As used by parser_antlr_visitor.go 37-709. -/
def Res.bind {α β : Type} : Res α → (α → Res β) → Res β
  | .ok a, f => f a
  | .err, _ => .err
  | .panic, _ => .panic

/-- A Go loop that collects the results of calls. As used by parser_antlr_visitor.go 37-709. -/
def Res.all {α β : Type} (f : α → Res β) : List α → Res (List β)
  | [] => .ok []
  | a :: l => (f a).bind (fun b => (Res.all f l).bind (fun r => .ok (b :: r)))

/-- A method call on a value that must not be nil. As used by parser_antlr_visitor.go 37-709. -/
def Res.must {α : Type} : Option α → Res α
  | some a => .ok a
  | none => .panic

end Verif

namespace Verif.Visit
open Verif Verif.Lex Verif.Gram Verif.Query Verif.Util

/-- `ctx.X().GetText()`: panics if there is no such child. As used by parser_antlr_visitor.go 37-709. -/
def textOf (r : Rule) (t : Tree) : Res Str := (Res.must (t.child r)).bind (fun c => .ok c.text)
/-- `ctx.GetX().GetText()`: panics if the label is not set. As used by parser_antlr_visitor.go 37-709. -/
def labelText (l : Lab) (t : Tree) : Res Str := (Res.must (t.label l)).bind (fun c => .ok c.text)

/-- `query.NewColumnWithName`, column.go 144-147. -/
def columnNamed (n : Str) : Column := { name := n }

/-! ### CREATE, DROP, ALTER -/

/-- parser_antlr_visitor.go 125-132 `newCreateDatabaseWith`. -/
def createDatabase (t : Tree) : Res Statement :=
  (textOf .database_name t).bind (fun n => .ok (.createDatabase n (t.child .if_not_exists).isSome))

/-- parser_antlr_visitor.go 247-258 `indexDefs`. -/
def indexDefs (t : Tree) : Res (List Str) :=
  (textOf .column_name t).bind (fun n => .ok (unEscapeNameString n ::
    (match t.child .type_name with
     | none => []
     | some y => (y.all .«name»).map (·.text))))

/-- parser_antlr_visitor.go 266-277: `KEY` after `PRIMARY`; the words from the one after `PRIMARY` on. -/
def primaryScan (cs : List Column) : List Str → Option (Str × Column)
  | v :: w :: r =>
    if v = s%"KEY" then
      match lookupColumn cs (unEscapeNameString w) with
      | some c => some ([], c)
      | none => primaryScan cs (w :: r)
    else primaryScan cs (w :: r)
  | _ => none

/-- parser_antlr_visitor.go 279-287: `KEY name column`; the words after `KEY` or `INDEX`. -/
def keyScan (cs : List Column) : List Str → Option (Str × Column)
  | n :: c :: _ => (lookupColumn cs (unEscapeNameString c)).map (fun x => (unEscapeNameString n, x))
  | _ => none

/-- parser_antlr_visitor.go 261-291 `indexColum`: the loop over all words but the last. -/
def indexScan (cs : List Column) : List Str → Option (Str × Column)
  | v :: w :: r =>
    match (if v = s%"PRIMARY" then primaryScan cs (w :: r)
           else if v = s%"KEY" ∨ v = s%"INDEX" then keyScan cs (w :: r) else none) with
    | some x => some x
    | none => indexScan cs (w :: r)
  | _ => none

/-- parser_antlr_visitor.go 356-362: names that are no column names. -/
def columnKeywords : List Str := [s%"PRIMARY", s%"KEY", s%"UNIQUE", s%"INDEX", s%"CONSTRAINT"]

/-- parser_antlr_visitor.go 380-393: the words of the type. -/
def typeWords (y : Tree) : List Str :=
  (y.all .«name»).map (·.text) ++
    (if (y.token .OPEN_PAR).isSome && (y.token .CLOSE_PAR).isSome then
      [s%"(", joinWithComma ((y.all .signed_number).map (·.text)), s%")"] else [])

/-- parser_antlr_visitor.go 355-412 `newColumnWith`; `none` is `ok = false`. -/
def columnWith (t : Tree) : Res (Option Column) :=
  (textOf .column_name t).bind (fun n =>
    let name := unEscapeNameString n
    if columnKeywords.any (Str.eqFold name) then .ok none
    else match t.child .type_name with
      | none => .ok none
      | some y =>
        if (typeWords y).length = 0 then .ok none
        else .ok (some { name := name, def_ := some ((newDataDefFromStrings (typeWords y)).getD unknownDataDef) }))

/-- parser_antlr_visitor.go 414-421 `newIndexedColumnWith`; the type name is the empty string. -/
def indexedColumnWith (t : Tree) : Res Column :=
  (textOf .column_name t).bind (fun n => .ok
    { name := unEscapeNameString n, def_ := some ((newDataDefFrom [] (-1)).getD unknownDataDef) })

/-- parser_antlr_visitor.go 299-306: a column definition adds its column and a primary index for every PRIMARY KEY constraint. -/
def columnStep (t : Tree) (acc : List Column × List Index) : Res (List Column × List Index) :=
  (columnWith t).bind (fun c => match c with
    | none => .ok acc
    | some c =>
      let keys := (t.all .column_constraint).filter (fun k => (k.child .primary_key_constraint).isSome)
      .ok (acc.1 ++ [c], acc.2 ++ keys.map (fun _ => newPrimaryIndexWith [c])))

/-- parser_antlr_visitor.go 311-322: the MySQL index definitions that parse as column definitions. -/
def indexStep (t : Tree) (acc : List Column × List Index) : Res (List Column × List Index) :=
  (textOf .column_name t).bind (fun n =>
    if n = s%"PRIMARY" then
      (indexDefs t).bind (fun ds => match indexScan acc.1 ds with
        | some (_, c) => .ok (acc.1, acc.2 ++ [newPrimaryIndexWith [c]])
        | none => .ok acc)
    else if n = s%"KEY" ∨ n = s%"INDEX" then
      (indexDefs t).bind (fun ds => match indexScan acc.1 ds with
        | some (i, c) => .ok (acc.1, acc.2 ++ [newSecondaryIndexWith i [c]])
        | none => .ok acc)
    else .ok acc)

/-- parser_antlr_visitor.go 297-323: the loop over the column definitions. -/
def columnDefs (acc : List Column × List Index) : List Tree → Res (List Column × List Index)
  | [] => .ok acc
  | t :: r => (columnStep t acc).bind (fun a => (indexStep t a).bind (fun b => columnDefs b r))

/-- parser_antlr_visitor.go 325-334: primary keys as table constraints. -/
def tableKeys (t : Tree) : Res (List Index) :=
  Res.all (fun p => (Res.all indexedColumnWith (p.all .indexed_column)).bind (fun cs =>
    .ok (newPrimaryIndexWith cs))) ((t.all .table_constraint).filterMap (·.child .primary_key_def))

/-- parser_antlr_visitor.go 247-338 `newTableSchemaWith`. -/
def tableSchema (t : Tree) : Res Schema :=
  (textOf .table_name t).bind (fun n =>
    (columnDefs ([], []) (t.all .column_def)).bind (fun a =>
      (tableKeys t).bind (fun ks => .ok (newSchemaWith (unEscapeNameString n) a.1 (a.2 ++ ks)))))

/-- parser_antlr_visitor.go 134-140 `newCreateTableWith`. -/
def createTable (t : Tree) : Res Statement :=
  (tableSchema t).bind (fun s => .ok (.createTable s (t.child .if_not_exists).isSome))

/-- parser_antlr_visitor.go 340-353 `newIndexSchemaWith`: an indexed expression has no column name and panics. -/
def indexSchema (t : Tree) : Res Schema :=
  (textOf .index_name t).bind (fun i => (textOf .table_name t).bind (fun n =>
    (Res.all (fun c => (textOf .column_name c).bind (fun m => .ok (columnNamed (unEscapeNameString m))))
      (t.all .indexed_column)).bind (fun cs =>
        .ok (newSchemaWith (unEscapeNameString n) [] [newSecondaryIndexWith (unEscapeNameString i) cs]))))

/-- parser_antlr_visitor.go 142-148 `newCreateIndexWith`. -/
def createIndex (t : Tree) : Res Statement :=
  (indexSchema t).bind (fun s => .ok (.createIndex s (t.child .if_not_exists).isSome))

/-- parser_antlr_visitor.go 150-157 `newDropDatabaseWith`. -/
def dropDatabase (t : Tree) : Res Statement :=
  (textOf .database_name t).bind (fun n => .ok (.dropDatabase n (t.child .if_exists).isSome))

/-- parser_antlr_visitor.go 159-170 `newDropTableWith`: a schema name is not looked at. -/
def dropTable (t : Tree) : Res Statement :=
  .ok (.dropTable ((t.all .table_name).map (fun n => { name := unEscapeNameString n.text }))
    (t.child .if_exists).isSome)

/-- parser_antlr_visitor.go 172-183 `newDropIndexWith`. -/
def dropIndex (t : Tree) : Res Statement :=
  (textOf .index_name t).bind (fun i => .ok (.dropIndex
    (((t.child .schema_name).map (fun s => unEscapeNameString s.text)).getD []) (unEscapeNameString i) (t.child .if_exists).isSome))

/-- parser_antlr_visitor.go 185-192 `newAlterDatabaseWith`. -/
def alterDatabase (t : Tree) : Res Statement :=
  (textOf .database_name t).bind (fun n => match t.child .rename_database_to with
    | none => .ok (.alterDatabase n [])
    | some r => (labelText .new_database_name r).bind (fun m => .ok (.alterDatabase n m)))

/-- parser_antlr_visitor.go 227-246 `newAddIndexSchemaWith`: type and name of the index. -/
def addIndexKind (t : Tree) : Res (IndexType × Str) :=
  match t.child .column_constraint with
  | none => .ok (.unknown, [])
  | some c => match c.child .index_constraint with
    | some i => (textOf .index_name i).bind (fun n => .ok (.secondary, unEscapeNameString n))
    | none => .ok (if (c.child .primary_key_constraint).isSome then .primary else .unknown, [])

/-- parser_antlr_visitor.go 227-246 `newAddIndexSchemaWith`. -/
def addIndex (t : Tree) : Res Index :=
  (addIndexKind t).bind (fun k => .ok
    { name := k.2, typ := k.1, columns := (t.all .column_name).map (fun c => columnNamed (unEscapeNameString c.text)) })

/-- Runs the call if the child is there. As used by parser_antlr_visitor.go 37-709. -/
def whenChild {α : Type} (r : Rule) (t : Tree) (f : Tree → Res α) : Res (Option α) :=
  match t.child r with
  | none => .ok none
  | some c => (f c).bind (fun a => .ok (some a))

/-- parser_antlr_visitor.go 204-208: RENAME COLUMN. -/
def renameColumns (t : Tree) : Res (Column × Column) :=
  (labelText .old_column_name t).bind (fun a => (labelText .new_column_name t).bind (fun b =>
    .ok (columnNamed a, columnNamed b)))

/-- parser_antlr_visitor.go 209-214: ADD COLUMN. -/
def addColumnOf (t : Tree) : Res (Option Column) := (Res.must (t.child .column_def)).bind columnWith

/-- parser_antlr_visitor.go 194-225 `newAlterTableWith`; the dropped column is named by the text of the whole clause (220). -/
def alterTable (t : Tree) : Res Statement :=
  (whenChild .rename_table_to t (textOf .table_name)).bind (fun rt =>
  (whenChild .rename_table_colum t renameColumns).bind (fun rc =>
  (whenChild .add_table_column t addColumnOf).bind (fun ac =>
  (whenChild .add_table_index t addIndex).bind (fun ai =>
  (labelText .target_table_name t).bind (fun n =>
    .ok (.alterTable {
      table := { schema := ((t.child .schema_name).map (fun s => unEscapeNameString s.text)).getD [], name := n },
      renameTo := rt.map (fun m => { name := unEscapeNameString m }),
      renameColumnFrom := rc.map (·.1), renameColumnTo := rc.map (·.2), addColumn := ac.getD none, addIndex := ai,
      dropColumn := (t.child .drop_table_column).map (fun d => columnNamed d.text) }))))))

/-! ### Literals and conditions -/

/-- parser_antlr_visitor.go 647-656 `newLiteralValueWith` (not nil). -/
def literalWith (t : Tree) : Literal :=
  match t.child .string_literal with
  | some s => { v := .str (unEscapeString s.text), t := .string }
  | none => { v := .str t.text }

/-- parser_antlr_visitor.go 658-663 `newBindParamWith`; a bind parameter prints as its name (bind.go 40-42). -/
def bindParamWith (t : Tree) : Literal := { v := .other t.text }

/-- parser_antlr_visitor.go 670-689: the operator of a comparison. -/
def cmpOp (t : Tree) : Option CmpOp :=
  if (t.token .ASSIGN).isSome then some .eq
  else if (t.token .NOT_EQ1).isSome || (t.token .NOT_EQ2).isSome then some .neq
  else if (t.token .LT).isSome then some .lt
  else if (t.token .GT).isSome then some .gt
  else if (t.token .LT_EQ).isSome then some .le
  else if (t.token .GT_EQ).isSome then some .ge
  else none

/-- parser_antlr_visitor.go 666-690 `newCmpExpr`; `none` is the nil expression. -/
def cmpWith (t : Tree) : Res (Option Expr) :=
  (textOf .column_name t).bind (fun n =>
    .ok ((cmpOp t).map (fun o => .cmp { op := o, left := columnNamed n, right := (t.child .literal_value).map literalWith })))

/-- parser_antlr_visitor.go 692-701: the two sides of AND and OR. A nil side would be kept by Go; the grammar does not allow one (every
comparison has an operator). -/
def pairWith (mk : Expr → Expr → Expr) (t : Tree) : Res (Option Expr) :=
  (Res.must (t.label .left)).bind (fun l => (cmpWith l).bind (fun a =>
    (Res.must (t.label .right)).bind (fun r => (cmpWith r).bind (fun b =>
      match a, b with
      | some x, some y => .ok (some (mk x y))
      | _, _ => .panic))))

/-- parser_antlr_visitor.go 665-705 `newExprWith`; `none` is nil: any other expression. -/
def exprWith (t : Tree) : Res (Option Expr) :=
  match t.child .and_expr with
  | some a => pairWith .and a
  | none => match t.child .or_expr with
    | some o => pairWith .or o
    | none => match t.child .comparison_expr with
      | some c => cmpWith c
      | none => .ok none

/-- parser_antlr_visitor.go 484-487, 593-596: the WHERE condition of UPDATE and DELETE (and 521-523, 531-534 of SELECT). -/
def whereOf (t : Tree) : Res Condition :=
  match t.label .whereExpr with
  | some w => exprWith w
  | none => .ok none

/-! ### INSERT, UPDATE, SELECT, DELETE -/

/-- parser_antlr_visitor.go 433-452: one row; `k` is `valueIdx`. -/
def insertRow (names : List Str) : Nat → List Tree → Res (List Column)
  | _, [] => .ok []
  | k, e :: r =>
    match e.child .comparison_expr with
    | some v => (textOf .column_name v).bind (fun n =>
        (insertRow names k r).bind (fun cs =>
          .ok ({ name := n, lit := (v.child .literal_value).map literalWith } :: cs)))
    | none =>
      match (match e.child .literal_value with
             | some v => some (literalWith v)
             | none => (e.child .bind_param).map bindParamWith) with
      | some l => (match names[k]? with
          | some n => (insertRow names (k + 1) r).bind (fun cs => .ok ({ name := n, lit := some l } :: cs))
          | none => insertRow names k r)
      | none => insertRow names k r

/-- parser_antlr_visitor.go 423-458 `newInsertWith`: without a VALUES clause the call on nil panics (431). -/
def insert (t : Tree) : Res Statement :=
  (textOf .table_name t).bind (fun n =>
    (Res.must (t.child .values_clause)).bind (fun v =>
      (Res.all (fun row => insertRow ((t.all .column_name).map (·.text)) 0 (row.all .expr)) (v.all .value_row)).bind
        (fun rows => .ok (.insert { table := { name := unEscapeNameString n }, values := rows }))))

/-- parser_antlr_visitor.go 475-481: the arithmetic operator of an assignment, arith_func.go 22-37, func_impl.go 68-75. -/
def arithFunction (ope : Str) (args : List Str) : Option Function :=
  (Fn.newArithOperatorFor ope).map (fun k =>
    { typ := k.type, name := k.name, executor := some { name := k.name, typ := k.type, args := args } })

/-- parser_antlr_visitor.go 463-483: one assignment. A list of column names has no `Column_name` and panics (464). -/
def assignment (t : Tree) : Res Column :=
  (textOf .column_name t).bind (fun n => (Res.must (t.child .expr)).bind (fun e =>
    match e.child .literal_value with
    | some v => .ok { name := n, lit := some (literalWith v) }
    | none => match e.child .bind_param with
      | some v => .ok { name := n, lit := some (bindParamWith v) }
      | none => match e.child .arithmetic_expr with
        | none => .ok { name := n }
        | some v => (labelText .ope v).bind (fun o => (textOf .column_name v).bind (fun a =>
            (textOf .expr v).bind (fun b => match arithFunction o [a, b] with
              | some f => .ok { name := n, fn := some f, args := [a, b] }
              | none => .ok { name := n })))))

/-- parser_antlr_visitor.go 460-490 `newUpdateWith`. -/
def update (t : Tree) : Res Statement :=
  (labelText .table t).bind (fun n =>
    (Res.all assignment (t.all .update_column_set)).bind (fun cs =>
      (whereOf t).bind (fun w => .ok (.update { table := { name := n }, columns := cs, cond := w }))))

/-- parser_antlr_visitor.go 577-585: the arguments of a function call. -/
def functionArgs (f : Tree) : List Str :=
  match f.token .STAR with
  | some s => [s.text]
  | none => (f.all .expr).map (·.text)

/-- parser_antlr_visitor.go 570-589 `newSelectorFrom`: a function call, or a column named by the whole text, alias included. -/
def selector (t : Tree) : Res Selector :=
  match (t.child .expr).bind (·.child .«function») with
  | some f => (textOf .function_name f).bind (fun n => .ok (.fn (Function.named n (functionArgs f))))
  | none => .ok (.col (columnNamed t.text))

/-- parser_antlr_visitor.go 510-518: the tables; the name is the text of the whole part, alias and schema included. -/
def fromTable (t : Tree) : Option Table :=
  (t.child .from_table).map (fun b =>
    { name := b.text, schema := ((b.child .schema_name).map (·.text)).getD [] })

/-- parser_antlr_visitor.go 540-552: the ordering terms; one without ASC or DESC is left out. -/
def orderOf (t : Tree) : Res (Option Order) :=
  (textOf .expr t).bind (fun n => .ok (
    match (match t.child .asc_desc with
           | some d => newOrderTypeWith d.text
           | none => .none) with
    | .none => none
    | o => some { column := n, order := o }))

/-- parser_antlr_visitor.go 536-555: ORDER BY. -/
def ordersOf (t : Tree) : Res (List Order) :=
  match t.child .order_by_stmt with
  | none => .ok []
  | some o => (Res.all orderOf (o.all .ordering_term)).bind (fun l => .ok (l.filterMap id))

/-- parser_antlr_visitor.go 557-574: LIMIT; `toUint` is safecast's conversion of a text to `uint` (`none` for its error). -/
def limitOf (toUint : Str → Option Nat) (t : Tree) : Limit :=
  match t.child .limit_stmt with
  | none => { offset := 0, limit := 0 }
  | some l => match l.all .expr with
    | [] => { offset := 0, limit := 0 }
    | [a] => { offset := 0, limit := (toUint a.text).getD 0 }
    | a :: b :: _ => { offset := (toUint b.text).getD 0, limit := (toUint a.text).getD 0 }

/-- parser_antlr_visitor.go 524-527: the first GROUP BY expression. -/
def groupOf (t : Tree) : Str :=
  match t.labels .groupByExpr with
  | [] => []
  | g :: _ => g.text

/-- parser_antlr_visitor.go 492-568 `newSelectWith`. The grammar always sets the label of the first part. -/
def select (toUint : Str → Option Nat) (t : Tree) : Res Statement :=
  match t.label .parentQuery with
  | none => (ordersOf t).bind (fun os => .ok (.select
      { selectors := [], tables := [], cond := none, orderBy := os, limit := limitOf toUint t }))
  | some q => (Res.all selector (q.all .result_column)).bind (fun ss =>
      (whereOf q).bind (fun w => (ordersOf t).bind (fun os => .ok (.select
        { selectors := ss, tables := (q.all .«from»).filterMap fromTable, cond := w, orderBy := os,
          limit := limitOf toUint t, groupBy := groupOf q }))))

/-- parser_antlr_visitor.go 591-598 `newDeleteWith`. -/
def delete (t : Tree) : Res Statement :=
  (labelText .table t).bind (fun n => (whereOf t).bind (fun w =>
    .ok (.delete { table := { name := n }, cond := w })))

/-! ### Other statements -/

/-- parser_antlr_visitor.go 600-618 `newCopyWith`, copy.go 91-102. -/
def copy (t : Tree) : Res Statement :=
  (whenChild .copy_format t (labelText .format_type)).bind (fun f =>
    (labelText .table t).bind (fun n => (textOf .source_name t).bind (fun s =>
      .ok (.copy { table := { name := unEscapeString n },
                   columns := ((t.child .copy_column_list).map (fun l => (l.all .column_name).map
                     (fun c => columnNamed (unEscapeString c.text)))).getD [],
                   source := unEscapeString s, format := (f.map (CopyFormat.parse .text)).getD .text }))))

/-- parser_antlr_visitor.go 620-626 `newTruncateWith`. -/
def truncate (t : Tree) : Res Statement :=
  .ok (.truncate ((t.all .table_name).map (fun n => { name := n.text })))

/-- parser_antlr_visitor.go 628-633 `newVacuumWith`. -/
def vacuum (t : Tree) : Res Statement :=
  .ok (.vacuum ((t.child .schema_name).map (fun n => { name := n.text })))

/-- parser_antlr_visitor.go 707-709 `newUseWith`. -/
def use (t : Tree) : Res Statement := (textOf .database_name t).bind (fun n => .ok (.use n))

/-- parser_antlr_visitor.go 55-123 `newStatementWith`: the statements that are turned into objects, in the order of the tests. -/
def handlers (toUint : Str → Option Nat) : List (Rule × (Tree → Res Statement)) :=
  [(.create_database_stmt, createDatabase), (.create_table_stmt, createTable), (.create_index_stmt, createIndex),
   (.drop_database_stmt, dropDatabase), (.drop_table_stmt, dropTable), (.drop_index_stmt, dropIndex),
   (.alter_database_stmt, alterDatabase), (.alter_table_stmt, alterTable), (.insert_stmt, insert),
   (.update_stmt, update), (.select_stmt, select toUint), (.delete_stmt, delete),
   (.commit_stmt, fun _ => .ok .commit), (.begin_stmt, fun _ => .ok .begin),
   (.rollback_stmt, fun _ => .ok .rollback), (.use_stmt, use), (.copy_stmt, copy), (.truncate_stmt, truncate),
   (.vacuum_stmt, vacuum)]

/-- The first handler whose child is there. parser_antlr_visitor.go 55-124. -/
def handle (t : Tree) : List (Rule × (Tree → Res Statement)) → Res (Option Statement)
  | [] => .ok none
  | (r, f) :: hs => match t.child r with
    | some c => (f c).bind (fun s => .ok (some s))
    | none => handle t hs

/-- parser_antlr_visitor.go 55-123 `newStatementWith`; `none` is nil. -/
def statement (toUint : Str → Option Nat) (t : Tree) : Res (Option Statement) := handle t (handlers toUint)

/-- parser_antlr_visitor.go 36-53 `VisitParse`, `newStatementListWith`: statements without an object are left out. -/
def statements (toUint : Str → Option Nat) (t : Tree) : Res (List Statement) :=
  (Res.all (statement toUint) ((t.all .sql_stmt_list).flatMap (·.all .sql_stmt))).bind (fun l => .ok (l.filterMap id))

end Verif.Visit

namespace Verif.Parse
open Verif Verif.Lex Verif.Gram Verif.Query

/-- The `Parser` object of parser_antlr.go 26-33; of its fields only the error listener is read by later calls.
`failed` is `!IsSuccess()`: set by a syntax error (parser_antlr_error_listener.go 46-49) and never reset. -/
structure Parser where
  failed : Bool
  deriving DecidableEq, Repr

/-- parser_antlr.go 37-47 `NewParser`, parser_antlr_error_listener.go 30-37. -/
def newParser : Parser := { failed := false }

/-- parser_antlr.go 50-62: the queries rejected before parsing. -/
def isEmptyQuery (q : Str) : Bool := q.length == 0 || q == s%";"

/-- The parse tree of a query text: the lexer's tokens on the default channel, then the parser
(parser_antlr.go 65-70). -/
def treeOf (q : Str) : Option Tree := (lex q).bind (fun ts => parseTree (visible ts))

/-- parser_antlr.go 50-85 `ParseString`. `toUint` is safecast's conversion of a text to `uint`. -/
def Parser.parseString (toUint : Str → Option Nat) (p : Parser) (q : Str) : Parser × Res (List Statement) :=
  if isEmptyQuery q then (p, .err)
  else match treeOf q with
    | none => ({ failed := true }, .err)
    | some t => if p.failed then (p, .err) else (p, Visit.statements toUint t)

/-- `sql.NewParser().ParseString(q)`: a query on a new parser. parser_impl.go 22-24, parser_antlr.go 49-84. -/
def parseQuery (toUint : Str → Option Nat) (q : Str) : Res (List Statement) := (newParser.parseString toUint q).2

end Verif.Parse

import Verif.Features.Diagnostics
import Verif.Features.SigTokens
import Verif.Features.VisibleSpec
import Verif.Format.Walker
/-!
# Diagnostics of the select clause

Models the providers `groupby_star_selection`, `ungrouped_select_variable` and `invalid_projection_variable` of
`src/server/message_handler/diagnostic/` with the syntax tree methods they call. Messages are not modelled.
-/
namespace Verif.Features
open Verif Verif.Grammar

/-! ## Syntax tree methods -/

/-- `SolutionModifier::cast(self.syntax.last_child()?)?.group_clause()`: `SelectQuery::soulution_modifier`
(ast/mod.rs L146-148) and `SolutionModifier::group_clause` (L57-59). -/
def groupClause (sq : Red) : Option Red :=
  match sq.lastChild with
  | none => none
  | some m =>
    if m.kind = K.SolutionModifier then
      match m.firstChild with
      | none => none
      | some c => if c.kind = K.GroupClause then some c else none
    else none

/-- rowan `last_token()`; nodes without tokens do not occur (C15). -/
def Red.lastToken (r : Red) : Option Red := r.tokens.getLast?

/-- `SelectClause::assignments` (ast/mod.rs L202-217): pairs of expression and variable. -/
def assignments (c : Red) : List (Red × Red) :=
  (c.children.filter (fun v => v.kind == K.Var)).filterMap (fun v =>
    match Format.prevNode v with
    | none => none
    | some e => if e.kind = K.Expression then some (e, v) else none)

/-- `SelectClause::variables` (ast/mod.rs L168-179). -/
def selectedVars (c : Red) : List Red :=
  (c.children.filter (fun v => v.kind == K.Var)).filter (fun v =>
    match Format.prevNode v with
    | none => true
    | some e => e.kind != K.Expression)

mutual
/-- `Expression::as_var` (ast/mod.rs L237-251): the text of the variable. -/
def asVar : Green → Option Text
  | .tok _ _ => none
  | .node k cs => if k = K.Var then some (Green.node k cs).text else soleVar cs
/-- The only child that is not trivia, if it is a node. -/
def soleVar : List Green → Option Text
  | [] => none
  | c :: cs => if triviaKind c.kind then soleVar cs else if cs.all (fun d => triviaKind d.kind) then asVar c else none
end

/-- `GroupClause::visible_variables` (ast/mod.rs L1449-1459), texts. -/
def groupTexts (gc : Red) : List Text :=
  gc.children.filterMap (fun cond =>
    match cond.lastChild with
    | none => none
    | some n => if n.kind = K.Var then some n.text else if n.kind = K.Expression then asVar n.green else none)

mutual
/-- `Expression::unaggregated_variables` (ast/mod.rs L253-265): the stack pops the last child first. -/
def unaggIn (g : Green) (idx off : Nat) (up : List Site) : List Red :=
  match g with
  | .tok _ _ => []
  | .node k cs => (if k = K.Var then [⟨⟨.node k cs, idx, off⟩, up⟩] else []) ++
      (if k = K.Aggregate then [] else unaggInL cs 0 off (⟨.node k cs, idx, off⟩ :: up))
def unaggInL (cs : List Green) (idx off : Nat) (up : List Site) : List Red :=
  match cs with
  | [] => []
  | g :: gs => unaggInL gs (idx + 1) (off + blen g.text) up ++ unaggIn g idx off up
end

/-- `unaggregated_variables`. -/
def unaggregated (e : Red) : List Red := unaggIn e.here.green e.here.idx e.here.off e.up

/-- `derived_variables.get(text)` (ungrouped_select_variable.rs L60-68): a later assignment overwrites an earlier one. -/
def derivedIdx (l : List (Red × Red)) (t : Text) : Option Nat :=
  ((l.zipIdx.filter (fun p => p.1.2.text == t)).getLast?).map (·.2)

/-! ## Providers -/

/-- `invalid_selection` (groupby_star_selection.rs L37-57): the star token. -/
def invalidStar (s : Red) : Option Red :=
  match s.lastChild with
  | none => none
  | some m =>
    if m.kind = K.SolutionModifier then
      match s.childOf [K.SelectClause] with
      | none => none
      | some c =>
        match groupClause s, c.lastToken with
        | some _, some t => if t.kind = K.Star then some t else none
        | _, _ => none
    else none

/-- `groupby_star_selection::diagnostics` (L15-35 with `collect_select_queries`). The outer `none` is a panic. -/
def groupbyStar (text : Text) (g : Green) : Option (Option (List Diag)) :=
  match unwrapAll (diagAt text .error .groupbyStar none)
      (((Red.root g).descendants.filter (fun s => s.kind == K.SelectQuery || s.kind == K.SubSelect)).filterMap invalidStar) with
  | none => none
  | some ds => some (if ds.isEmpty then none else some ds)

/-- The variables reported by `ungrouped_select_variable::diagnostics` (L29-108), in order. -/
def ungroupedVars (gc c : Red) : List Red :=
  (selectedVars c).filter (fun v => !(groupTexts gc).contains v.text) ++
  (((assignments c).zipIdx.flatMap (fun p => (unaggregated p.1.1).map (fun v => (p.2, v)))).filter (fun q =>
    !(groupTexts gc).contains q.2.text &&
      (match derivedIdx (assignments c) q.2.text with
       | none => true
       | some i => decide (q.1 < i)))).map (·.2)

/-- `ungrouped_select_variable::diagnostics` (ungrouped_select_variable.rs L24-109). -/
def ungroupedSelect (text : Text) (g : Green) : Option (Option (List Diag)) :=
  match selectQuery g with
  | none => some none
  | some sq =>
    match groupClause sq with
    | none => some none
    | some gc =>
      match sq.childOf [K.SelectClause] with
      | none => some none
      | some c => (unwrapAll (diagAt text .error .ungroupedSelectVar none) (ungroupedVars gc c)).map some

/-- `invalid_projection_variable::diagnostics` (invalid_projection_variable.rs L21-68). -/
def invalidProjection (text : Text) (g : Green) : Option (Option (List Diag)) :=
  match selectQuery g with
  | none => some none
  | some sq =>
    match sq.childOf [K.SelectClause] with
    | none => some none
    | some c =>
      if (assignments c).isEmpty then some none
      else
        match sq.childOf [K.WhereClause] with
        | none => some none
        | some w =>
          (unwrapAll (diagAt text .error .invalidProjectionVar none)
            (((assignments c).map (·.2)).filter (fun v => (attr w.green).visible.contains v.text))).map some

/-! ## Specification -/

/-- `c` is a part (child node) of `r` of the kind. -/
def Part (r : Red) (k : Kind) (c : Red) : Prop := c ∈ r.childrenT ∧ c.isNode = true ∧ c.kind = k

/-- A select query or sub-select of the document. -/
def IsSelect (g : Green) (s : Red) : Prop := InTree g s ∧ s.isNode = true ∧ (s.kind = K.SelectQuery ∨ s.kind = K.SubSelect)

/-- The `GROUP BY` clause of a select. -/
def GroupedBy (s gc : Red) : Prop := ∃ m, Part s K.SolutionModifier m ∧ Part m K.GroupClause gc

/-- Neither white space nor comment. -/
def Red.sig (r : Red) : Bool := !triviaKind r.kind

/-- `e AS v` is written in the clause. -/
def Assigns (c e v : Red) : Prop :=
  ∃ E T Y a, c.childrenT = E ++ e :: T ++ v :: Y ∧ T.filter Red.sig = [a] ∧ a.isNode = false ∧ a.kind = K.AS ∧
    e.isNode = true ∧ e.kind = K.Expression ∧ v.isNode = true ∧ v.kind = K.Var

/-- The clause selects the variable as it is. -/
def Selects (c v : Red) : Prop := Part c K.Var v ∧ ∀ e, ¬ Assigns c e v

/-- The query is grouped by the variable with this text: a condition `?x`, `(.. AS ?x)` or `(?x)`. -/
def GroupVar (gc : Red) (t : Text) : Prop :=
  ∃ cond, Part gc K.GroupCondition cond ∧
    ((∃ v, Part cond K.Var v ∧ v.text = t) ∨
     ((∀ v, ¬ Part cond K.Var v) ∧ ∃ e x, Part cond K.Expression e ∧ e.sigT = [x] ∧ (x.kind = K.VAR1 ∨ x.kind = K.VAR2) ∧ x.text = t))

/-- A variable of the expression that is in no aggregate. -/
def FreeIn (g : Green) (e v : Red) : Prop :=
  InTree g v ∧ v.isNode = true ∧ v.kind = K.Var ∧ e ∈ v.ancestors ∧ ∀ a ∈ v.ancestors, a.kind ≠ K.Aggregate

end Verif.Features

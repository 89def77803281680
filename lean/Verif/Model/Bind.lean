import Verif.Model.Res
/-! Bound statements: sql/stmt/bind_impl.go, sql/stmt/bind_param_impl.go. -/
namespace Verif.Bind

/-- What the code takes from outside for the text of a parameter: the nanoseconds of a `time.Time`, its two
formats, `strconv.FormatFloat` and `safecast.ToString`. bind_param_impl.go 34-58. -/
structure BEnv (T F V : Type) where
  nanos : T → Nat
  seconds : T → Str
  micros : T → Str
  float : F → Str
  other : V → Option Str

/-- The dynamic types bind_param_impl.go 36-47 tells apart. -/
inductive Param (T F V : Type)
  | str (s : Str)
  | time (t : T)
  | float (f : F)
  | other (v : V)
  deriving DecidableEq

variable {T F V : Type}

/-- bind_param_impl.go 34-51 `String`. -/
def Param.text (B : BEnv T F V) : Param T F V → Option Str
  | .str s => some ('\'' :: s ++ ['\''])
  | .time t => if B.nanos t = 0 then some ('\'' :: B.seconds t ++ ['\'']) else some ('\'' :: B.micros t ++ ['\''])
  | .float f => some (B.float f)
  | .other v => B.other v

/-- bind_impl.go 26 `pgPlaceholderFormat`. -/
def numbered (k : Nat) : Str := '$' :: Str.ofNat k

/-- bind_impl.go 72-81: one turn of the loop, for the parameter at position `n` with text `s`. -/
def bindOne (q : Str) (n : Nat) (s : Str) : Option Str :=
  if (Str.index q ['?']).any (0 < ·) then some (Str.replaceFirst q ['?'] s)
  else if (Str.index q (numbered (n + 1))).any (0 < ·) then some (Str.replaceFirst q (numbered (n + 1)) s)
  else none

/-- bind_impl.go 66-82: the loop from position `n`. -/
def bindLoop (B : BEnv T F V) : Str → Nat → List (Param T F V) → Option Str
  | q, _, [] => some q
  | q, n, p :: ps => match p.text B with
    | none => none
    | some s => match bindOne q n s with
      | none => none
      | some q' => bindLoop B q' (n + 1) ps

/-- bind_impl.go 64-88 `Statements`, up to the parser. -/
def bindText (B : BEnv T F V) (q : Str) (ps : List (Param T F V)) : Option Str := bindLoop B q 0 ps

/-- bind_impl.go 64-88 `Statements`. -/
def statements {α : Type} (B : BEnv T F V) (parse : Str → Option α) (q : Str) (ps : List (Param T F V)) : Option α :=
  (bindText B q ps).bind parse

end Verif.Bind

import Verif.Model.Basic

/-!
# Model of `format_pars` and `print_pars`, `/repo/ngmix/util.py:5-54`

The operator `%` of Python strings is written out character by character, for a tuple on the right.  How one value is
written under a conversion (`'%8.3g' % x`) is outside: an arbitrary function `render`, and which values are integers an
arbitrary function `asInt`.  Widths too large for the machine are not refused here.
-/

namespace Ngmix

/-- A conversion as read so far: flags, width, precision.  `util.py:54`. -/
structure FmtSpec where
  flags : List Char
  width : Option Int
  prec : Option Int

/-- Where the reader of a format stands.  `util.py:54`. -/
inductive FmtMode
  | text
  | start (s : FmtSpec)
  | flags (s : FmtSpec)
  | width (s : FmtSpec)
  | afterWidth (s : FmtSpec)
  | dot (s : FmtSpec)
  | prec (s : FmtSpec)
  | afterPrec (s : FmtSpec)
  | conv (s : FmtSpec)

/-- The state of `%`: the text written, the values left, the mode.  `util.py:54`. -/
structure FmtState (V : Type) where
  out : List Char
  args : List V
  mode : FmtMode

/-- The externals of `%`: how a value is written, and which values are integers.  `util.py:54`. -/
structure FmtEnv (V : Type) where
  render : FmtSpec → Char → V → Except PyErr (List Char)
  asInt : V → Option Int

variable {V : Type}

/-- The next value of the tuple; "not enough arguments for format string" is a TypeError.  `util.py:54`. -/
def fmtPop (st : FmtState V) (f : V → List V → Except PyErr (FmtState V)) : Except PyErr (FmtState V) :=
  match st.args with
  | [] => .error .type
  | x :: rest => f x rest

/-- The conversion characters.  `util.py:54`. -/
def fmtConvs : List Char := "diouxXeEfFgGcrsa".toList

/-- The conversion character: `%` is written as it is, an unknown one is a ValueError, after the value is taken. 
`util.py:54`. -/
def fmtConvert (E : FmtEnv V) (st : FmtState V) (s : FmtSpec) (c : Char) : Except PyErr (FmtState V) :=
  if c = '%' then .ok ⟨st.out ++ ['%'], st.args, .text⟩
  else fmtPop st fun x rest =>
    if c ∈ fmtConvs then (E.render s c x).map fun t => ⟨st.out ++ t, rest, .text⟩ else .error .value

/-- After the precision: an optional length, which is ignored.  `util.py:54`. -/
def fmtLen (E : FmtEnv V) (st : FmtState V) (s : FmtSpec) (c : Char) : Except PyErr (FmtState V) :=
  if c = 'h' ∨ c = 'l' ∨ c = 'L' then .ok { st with mode := .conv s } else fmtConvert E st s c

/-- After the width.  `util.py:54`. -/
def fmtDot (E : FmtEnv V) (st : FmtState V) (s : FmtSpec) (c : Char) : Except PyErr (FmtState V) :=
  if c = '.' then .ok { st with mode := .dot { s with prec := some 0 } } else fmtLen E st s c

/-- One more digit of a number.  `util.py:54`. -/
def fmtDigit (w : Option Int) (c : Char) : Option Int := some (w.getD 0 * 10 + ((c.toNat : Int) - 48))

/-- A `*`: the number is the next value, "* wants int" is a TypeError.  `util.py:54`. -/
def fmtStar (E : FmtEnv V) (st : FmtState V) (k : Int → FmtMode) : Except PyErr (FmtState V) :=
  fmtPop st fun x rest =>
    match E.asInt x with
    | none => .error .type
    | some n => .ok ⟨st.out, rest, k n⟩

/-- After `%` and the flags so far.  A negative width from `*` is a flag `-`.  `util.py:54`. -/
def fmtFlags (E : FmtEnv V) (st : FmtState V) (s : FmtSpec) (c : Char) : Except PyErr (FmtState V) :=
  if c = '-' ∨ c = '+' ∨ c = ' ' ∨ c = '#' ∨ c = '0' then .ok { st with mode := .flags { s with flags := s.flags ++ [c] } }
  else if c = '*' then
    fmtStar E st fun n => .afterWidth (if n < 0 then { s with flags := s.flags ++ ['-'], width := some (-n) } else { s with width := some n })
  else if c.isDigit then .ok { st with mode := .width { s with width := fmtDigit none c } }
  else fmtDot E st s c

/-- One character of the format.  `%(` asks for a mapping, which a tuple is not: TypeError.  `util.py:54`. -/
def fmtStep (E : FmtEnv V) (st : FmtState V) (c : Char) : Except PyErr (FmtState V) :=
  match st.mode with
  | .text => if c = '%' then .ok { st with mode := .start ⟨[], none, none⟩ } else .ok { st with out := st.out ++ [c] }
  | .start s => if c = '(' then .error .type else fmtFlags E st s c
  | .flags s => fmtFlags E st s c
  | .width s => if c.isDigit then .ok { st with mode := .width { s with width := fmtDigit s.width c } } else fmtDot E st s c
  | .afterWidth s => fmtDot E st s c
  | .dot s =>
      if c = '*' then fmtStar E st fun n => .afterPrec { s with prec := some (max n 0) }
      else if c.isDigit then .ok { st with mode := .prec { s with prec := fmtDigit none c } }
      else fmtLen E st s c
  | .prec s => if c.isDigit then .ok { st with mode := .prec { s with prec := fmtDigit s.prec c } } else fmtLen E st s c
  | .afterPrec s => fmtLen E st s c
  | .conv s => fmtConvert E st s c

/-- The characters of a format in turn.  `util.py:54`. -/
def fmtRun (E : FmtEnv V) : List Char → FmtState V → Except PyErr (FmtState V)
  | [], st => .ok st
  | c :: cs, st => (fmtStep E st c).bind (fmtRun E cs)

/-- The end: "incomplete format" is a ValueError, "not all arguments converted" a TypeError.  `util.py:54`. -/
def fmtEnd (st : FmtState V) : Except PyErr (List Char) :=
  match st.mode, st.args with
  | .text, [] => .ok st.out
  | .text, _ :: _ => .error .type
  | _, _ => .error .value

/-- `fmt % args` for a tuple.  `util.py:54`. -/
def pyMod (E : FmtEnv V) (fmt : List Char) (args : List V) : Except PyErr (List Char) :=
  (fmtRun E fmt ⟨[], args, .text⟩).bind fmtEnd

/-- `" ".join(xs)`.  `util.py:53`. -/
def spaceJoin : List (List Char) → List Char
  | [] => []
  | [x] => x
  | x :: y :: r => x ++ ' ' :: spaceJoin (y :: r)

/-- `util.py:38-54` `format_pars`. -/
def formatPars (E : FmtEnv V) (pars : List V) (fmt : List Char) : Except PyErr (List Char) :=
  pyMod E (spaceJoin (List.replicate pars.length (fmt ++ [' ']))) pars

/-- Where `print_pars` writes: what the stream and the logger have been given, in order.  `util.py:32-35`. -/
structure PrintState where
  stream : List (List Char)
  debug : List (List Char)

/-- `util.py:5-35` `print_pars`; `logger` says whether one was given.  What was written before an exception stays. -/
def printPars (E : FmtEnv V) (S : PrintState) (pars : Option (List V)) (fmt : List Char) (front : Option (List Char))
    (logger : Bool) : PrintState × Except PyErr Unit :=
  let txt := match front with
    | none => []
    | some f => f ++ [' ']
  let body : Except PyErr (List Char) := match pars with
    | none => .ok "None".toList
    | some p => formatPars E p fmt
  match body with
  | .error e => (S, .error e)
  | .ok s =>
      if logger then ({ S with debug := S.debug ++ [txt ++ s] }, .ok ())
      else ({ S with stream := S.stream ++ [txt ++ s ++ ['\n']] }, .ok ())

end Ngmix

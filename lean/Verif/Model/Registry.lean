import Verif.Model.Quantity

/-!
# `quantities/registry.py`: unit strings

`unit_registry[label]` rewrites the label, parses it with `ast.parse(..., mode="eval")`, checks every
node of the tree against a whitelist and evaluates the tree with the registry as its only namespace.

Simplifications.
* Strings are lists of characters.
* The Python grammar.  The lexer and parser below cover the arithmetic fragment: ASCII names that are
  not keywords, plain decimal literals, `+ - * / // % @ **`, unary `+ - ~`, parentheses, blanks.  A
  string outside that fragment is handed to an arbitrary function `P` (the rest of CPython's parser),
  about which nothing is assumed.
* Values.  Numeric literals are exact rationals.  Operators on operands other than the ones
  spelled out in `stdBin` are an arbitrary function (`PyOps`), about which nothing is assumed.
-/

namespace PQ

/-! ## Syntax trees (`ast` module) -/

/-- Subclasses of `ast.operator`. -/
inductive PyBinOp
  | add | sub | mul | matMul | div | mod | pow | lShift | rShift | bitOr | bitXor | bitAnd | floorDiv
  deriving DecidableEq

/-- Subclasses of `ast.unaryop`. -/
inductive PyUnOp
  | invert | not | uAdd | uSub
  deriving DecidableEq

/-- Value of an `ast.Constant`: a real number, or something else (string, bytes, complex, `None`,
`True`, `...`), kept as an opaque tag. -/
inductive PyConst
  | num (q : ℚ)
  | other (tag : Nat)
  deriving DecidableEq

/-- The remaining expression nodes of Python's grammar. -/
inductive NodeKind
  | attribute | call | subscript | lambda | ifExp | dict | set | listComp | setComp | dictComp
  | generatorExp | await | yield | yieldFrom | compare | boolOp | namedExpr | formattedValue
  | joinedStr | starred | list | tuple | slice | comprehension | keyword | arguments | arg
  deriving DecidableEq

/-- An expression tree. -/
inductive PyAST
  | constant (c : PyConst)
  | name (id : List Char)
  | binOp (op : PyBinOp) (l r : PyAST)
  | unaryOp (op : PyUnOp) (e : PyAST)
  | node (k : NodeKind) (children : List PyAST)

/-- The class of a node met by `ast.walk`. -/
inductive NodeClass
  | expression | constant | name | load | binOp | unaryOp
  | operator (op : PyBinOp)
  | unaryop (op : PyUnOp)
  | kind (k : NodeKind)
  deriving DecidableEq

mutual
/-- Classes of the nodes of `ast.walk` below (and including) an expression; the context node `Load`
of a name and the operator nodes are children too. The order is irrelevant (`all`). -/
def PyAST.walk : PyAST → List NodeClass
  | .constant _ => [.constant]
  | .name _ => [.name, .load]
  | .binOp op l r => .binOp :: .operator op :: (PyAST.walk l ++ PyAST.walk r)
  | .unaryOp op e => .unaryOp :: .unaryop op :: PyAST.walk e
  | .node k cs => .kind k :: PyAST.walkList cs
/-- The same for a list of children. -/
def PyAST.walkList : List PyAST → List NodeClass
  | [] => []
  | c :: cs => PyAST.walk c ++ PyAST.walkList cs
end

/-- `isinstance(node, self.whitelist)` (`registry.py` 14-23, 33). -/
def NodeClass.whitelisted : NodeClass → Bool
  | .expression | .constant | .name | .load | .binOp | .unaryOp => true
  | .operator _ => true
  | .unaryop _ => true
  | .kind _ => false

/-- `all(isinstance(node, self.whitelist) for node in ast.walk(tree))` (`registry.py` 33). -/
def PyAST.valid (t : PyAST) : Bool := (NodeClass.expression :: t.walk).all NodeClass.whitelisted

/-! ## Evaluation -/

/-- What an evaluated unit string can be: a literal, a registered unit object, a quantity, one of the
two classes in the registry, or any other Python object. -/
inductive RVal (K : Type _)
  | const (c : PyConst)
  | unit (u : UKey)
  | qty (q : SQ K)
  | cls (label : List Char)
  | obj (tag : Nat)

/-- Python's operators on values. -/
structure PyOps (K : Type _) where
  bin : PyBinOp → RVal K → RVal K → Py (RVal K)
  un : PyUnOp → RVal K → Py (RVal K)

variable {K : Type _}

/-- Name lookup in `self.__context` (`registry.py` 36-42); `NameError` becomes `LookupError`.  The
registry also holds the two classes (`unitquantity.py` 287, 406), modelled as present unless a unit
has taken the label. -/
def World.context (w : World K) (id : List Char) : Py (RVal K) :=
  match Dict.get? w.registry (String.ofList id) with
  | some u => .ok (.unit u)
  | none =>
    if id = "UnitQuantity".toList ∨ id = "CompoundUnit".toList then .ok (.cls id)
    else .error .lookupError

/-- `eval(compile(tree, ...), {"__builtins__": {}}, self.__context)` (`registry.py` 36-40) on a
whitelisted tree.  Python evaluates left operand, right operand, then the operator.  Other nodes are
never evaluated because the whitelist test comes first; here they raise. -/
def evalTree (O : PyOps K) (w : World K) : PyAST → Py (RVal K)
  | .constant c => .ok (.const c)
  | .name id => w.context id
  | .binOp op l r =>
    match evalTree O w l with
    | .error e => .error e
    | .ok a =>
      match evalTree O w r with
      | .error e => .error e
      | .ok b => O.bin op a b
  | .unaryOp op e =>
    match evalTree O w e with
    | .error e => .error e
    | .ok a => O.un op a
  | .node _ _ => .error .exception

/-- `__Registry.__getitem__` (`registry.py` 29-47); `UnitRegistry` delegates to one shared instance (`registry.py` 62-69). -/
def registryGet (parse : List Char → Py PyAST) (O : PyOps K) (w : World K) (s : List Char) :
    Py (RVal K) :=
  match parse s with
  | .error e => .error e
  | .ok t => if t.valid then evalTree O w t else .error .lookupError

/-! ## Rewriting the label -/

/-- `s.replace(c, r)` for a one-character pattern. -/
def replaceChar (c : Char) (r : List Char) (s : List Char) : List Char :=
  s.flatMap (fun x => if x = c then r else [x])

/-- `[A-Za-z]`. -/
def isAsciiLetter (c : Char) : Bool :=
  ('a'.toNat ≤ c.toNat && c.toNat ≤ 'z'.toNat) || ('A'.toNat ≤ c.toNat && c.toNat ≤ 'Z'.toNat)

/-- `re.sub(r'([A-Za-z])\.([A-Za-z])', r'\g<1>*\g<2>', s)` (`registry.py` 62, 74-75): leftmost
matches that do not overlap; scanning resumes after the second letter. -/
def dotSub : List Char → List Char
  | a :: b :: c :: rest =>
    if isAsciiLetter a && b == '.' && isAsciiLetter c then a :: '*' :: c :: dotSub rest
    else a :: dotSub (b :: c :: rest)
  | s => s

/-- `label.lower() == "in"`.  No other characters lower to `i` or `n`. -/
def isIn (s : List Char) : Bool :=
  s == ['i', 'n'] || s == ['I', 'n'] || s == ['i', 'N'] || s == ['I', 'N']

/-- The label as handed to the parser (`registry.py` 74-80). -/
def preprocess (label : List Char) : List Char :=
  let s := dotSub (replaceChar '·' ['*'] (replaceChar '^' ['*', '*'] label))
  let s := if s = [] then "dimensionless".toList else s
  let s := if s.contains '%' then replaceChar '%' "percent".toList s else s
  if isIn s then "inch".toList else s

/-- `unit_registry[label]` (`registry.py` 71-82). -/
def lookup (parse : List Char → Py PyAST) (O : PyOps K) (w : World K) (label : List Char) :
    Py (RVal K) :=
  registryGet parse O w (preprocess label)

/-! ## The lexer of the arithmetic fragment -/

/-- Tokens. -/
inductive Tok
  | name (id : List Char)
  | num (q : ℚ)
  | plus | minus | star | dstar | slash | dslash | percent | at | tilde | lpar | rpar
  deriving DecidableEq

/-- `[0-9]`. -/
def isDig (c : Char) : Bool := '0'.toNat ≤ c.toNat && c.toNat ≤ '9'.toNat

/-- Start of an ASCII identifier. -/
def isIdStart (c : Char) : Bool := isAsciiLetter c || c == '_'

/-- Continuation of an ASCII identifier. -/
def isIdCont (c : Char) : Bool := isIdStart c || isDig c

/-- Python's keywords. -/
def pyKeywords : List (List Char) :=
  ["False", "None", "True", "and", "as", "assert", "async", "await", "break", "class", "continue",
   "def", "del", "elif", "else", "except", "finally", "for", "from", "global", "if", "import", "in",
   "is", "lambda", "nonlocal", "not", "or", "pass", "raise", "return", "try", "while", "with",
   "yield"].map String.toList

/-- Value of a digit. -/
def digVal (c : Char) : Nat := c.toNat - '0'.toNat

/-- Value of a string of digits, continuing from `acc`. -/
def digitsVal (acc : Nat) (cs : List Char) : Nat := cs.foldl (fun a c => 10 * a + digVal c) acc

/-- A decimal literal: digits without superfluous leading zero, optionally a point and more digits.
Other literals (exponents, underscores, hexadecimal, imaginary) are outside the fragment. -/
def decimalLit (s : List Char) : Option ℚ :=
  let ip := s.takeWhile isDig
  let rest := s.dropWhile isDig
  if ip = [] ∨ (ip.head? = some '0' ∧ ip.length ≠ 1) then none
  else
    match rest with
    | [] => some (digitsVal 0 ip : ℚ)
    | c :: fp =>
      if c = '.' ∧ fp.all isDig then
        some ((digitsVal 0 (ip ++ fp) : ℚ) / (10 : ℚ) ^ fp.length)
      else none

/-- The token being read. -/
inductive Pending
  | idle
  | word (cs : List Char)
  | number (cs : List Char)
  | sym (cs : List Char)
  deriving DecidableEq

/-- The operator tokens. -/
def symTok : List Char → Option Tok
  | ['+'] => some .plus
  | ['-'] => some .minus
  | ['*'] => some .star
  | ['*', '*'] => some .dstar
  | ['/'] => some .slash
  | ['/', '/'] => some .dslash
  | ['%'] => some .percent
  | ['@'] => some .at
  | ['~'] => some .tilde
  | ['('] => some .lpar
  | [')'] => some .rpar
  | _ => none

/-- Finish the current token in front of the tokens that follow. -/
def Pending.flush : Pending → List Tok → Option (List Tok)
  | .idle, ts => some ts
  | .word cs, ts => if cs ∈ pyKeywords then none else some (.name cs :: ts)
  | .number cs, ts => (decimalLit cs).map (fun q => .num q :: ts)
  | .sym cs, ts => (symTok cs).map (fun t => t :: ts)

/-- Longest match: does `c` continue the current token? -/
def Pending.extend : Pending → Char → Option Pending
  | .idle, _ => none
  | .word cs, c => if isIdCont c then some (.word (cs ++ [c])) else none
  | .number cs, c => if isIdCont c || c == '.' then some (.number (cs ++ [c])) else none
  | .sym cs, c =>
    if (cs == ['*'] && c == '*') || (cs == ['/'] && c == '/') then some (.sym (cs ++ [c])) else none

/-- Start a token. Blanks separate tokens; any other character is outside the fragment. -/
def Pending.start (c : Char) : Option Pending :=
  if isIdStart c then some (.word [c])
  else if isDig c then some (.number [c])
  else if c == ' ' || c == '\t' then some .idle
  else if (symTok [c]).isSome then some (.sym [c])
  else none

/-- The lexer; `none` means outside the fragment. -/
def lexGo : Pending → List Char → Option (List Tok)
  | p, [] => p.flush []
  | p, c :: cs =>
    match p.extend c with
    | some p' => lexGo p' cs
    | none =>
      match Pending.start c with
      | none => none
      | some p' =>
        match lexGo p' cs with
        | none => none
        | some ts => p.flush ts

/-- Tokens of a string.  A string that starts with a blank is outside the fragment (CPython's parser
reports an unexpected indent). -/
def lex (s : List Char) : Option (List Tok) :=
  if s.head? = some ' ' ∨ s.head? = some '\t' then none else lexGo .idle s

/-! ## The parser of the arithmetic fragment

Python's grammar: `sum: sum ('+'|'-') term`, `term: term ('*'|'/'|'//'|'%'|'@') factor`,
`factor: ('+'|'-'|'~') factor | power`, `power: atom ['**' factor]`,
`atom: NAME | NUMBER | '(' sum ')'`.  The first argument bounds the recursion. -/

mutual
/-- `sum`. -/
def pSum : Nat → List Tok → Option (PyAST × List Tok)
  | 0, _ => none
  | n + 1, ts =>
    match pTerm n ts with
    | none => none
    | some (a, r) => pSumLoop n a r
/-- the tail of a `sum`. -/
def pSumLoop : Nat → PyAST → List Tok → Option (PyAST × List Tok)
  | 0, _, _ => none
  | n + 1, a, .plus :: r =>
    match pTerm n r with
    | none => none
    | some (b, r) => pSumLoop n (.binOp .add a b) r
  | n + 1, a, .minus :: r =>
    match pTerm n r with
    | none => none
    | some (b, r) => pSumLoop n (.binOp .sub a b) r
  | _ + 1, a, r => some (a, r)
/-- `term`. -/
def pTerm : Nat → List Tok → Option (PyAST × List Tok)
  | 0, _ => none
  | n + 1, ts =>
    match pFactor n ts with
    | none => none
    | some (a, r) => pTermLoop n a r
/-- the tail of a `term`. -/
def pTermLoop : Nat → PyAST → List Tok → Option (PyAST × List Tok)
  | 0, _, _ => none
  | n + 1, a, .star :: r =>
    match pFactor n r with
    | none => none
    | some (b, r) => pTermLoop n (.binOp .mul a b) r
  | n + 1, a, .slash :: r =>
    match pFactor n r with
    | none => none
    | some (b, r) => pTermLoop n (.binOp .div a b) r
  | n + 1, a, .dslash :: r =>
    match pFactor n r with
    | none => none
    | some (b, r) => pTermLoop n (.binOp .floorDiv a b) r
  | n + 1, a, .percent :: r =>
    match pFactor n r with
    | none => none
    | some (b, r) => pTermLoop n (.binOp .mod a b) r
  | n + 1, a, .at :: r =>
    match pFactor n r with
    | none => none
    | some (b, r) => pTermLoop n (.binOp .matMul a b) r
  | _ + 1, a, r => some (a, r)
/-- `factor`. -/
def pFactor : Nat → List Tok → Option (PyAST × List Tok)
  | 0, _ => none
  | n + 1, .plus :: r =>
    match pFactor n r with
    | none => none
    | some (a, r) => some (.unaryOp .uAdd a, r)
  | n + 1, .minus :: r =>
    match pFactor n r with
    | none => none
    | some (a, r) => some (.unaryOp .uSub a, r)
  | n + 1, .tilde :: r =>
    match pFactor n r with
    | none => none
    | some (a, r) => some (.unaryOp .invert a, r)
  | n + 1, ts =>
    match pAtom n ts with
    | none => none
    | some (a, .dstar :: r) =>
      match pFactor n r with
      | none => none
      | some (b, r) => some (.binOp .pow a b, r)
    | some (a, r) => some (a, r)
/-- `atom`. -/
def pAtom : Nat → List Tok → Option (PyAST × List Tok)
  | 0, _ => none
  | _ + 1, .name id :: r => some (.name id, r)
  | _ + 1, .num q :: r => some (.constant (.num q), r)
  | n + 1, .lpar :: r =>
    match pSum n r with
    | some (a, .rpar :: r) => some (a, r)
    | _ => none
  | _ + 1, _ => none
end

/-- `ast.parse(s, mode="eval")` (`registry.py` 32): the fragment, or the rest of Python's grammar. -/
def parseWith (P : List Char → Py PyAST) (s : List Char) : Py PyAST :=
  match lex s with
  | none => P s
  | some ts =>
    match pSum (8 * ts.length + 8) ts with
    | some (t, []) => .ok t
    | _ => P s

/-! ## Operators on units, quantities and numbers -/

/-- An operand as a quantity: unit objects are quantities of magnitude 1. -/
def RVal.asQty [One K] : RVal K → Option (SQ K)
  | .unit u => some ⟨1, unitDim u⟩
  | .qty q => some q
  | _ => none

/-- An operand as a number. -/
def RVal.asNum : RVal K → Option ℚ
  | .const (.num q) => some q
  | _ => none

/-- `*`, `/`, `**` on scalars: quantities as in `Model/Quantity.lean`, numbers exactly; a number
divided by zero and zero raised to a negative power raise `ZeroDivisionError`.  Everything else, and
in particular a number raised to a non-integer power, is left to `F`. -/
def stdBin [One K] [Mul K] [Div K] [RPow K] [RatCast K] (F : PyOps K) (op : PyBinOp)
    (a b : RVal K) : Py (RVal K) :=
  match op, a.asQty, a.asNum, b.asQty, b.asNum with
  | .mul, some p, _, some q, _ => .ok (.qty ⟨p.mag * q.mag, Dim.mul p.dim q.dim⟩)
  | .mul, some p, _, _, some y => .ok (.qty ⟨p.mag * (y : K), p.dim⟩)
  | .mul, _, some x, some q, _ => .ok (.qty ⟨(x : K) * q.mag, q.dim⟩)
  | .mul, _, some x, _, some y => .ok (.const (.num (x * y)))
  | .div, some p, _, some q, _ => .ok (.qty ⟨p.mag / q.mag, Dim.div p.dim q.dim⟩)
  | .div, some p, _, _, some y => .ok (.qty ⟨p.mag / (y : K), p.dim⟩)
  | .div, _, some x, some q, _ => .ok (.qty ⟨(x : K) / q.mag, Dim.pow q.dim (-1)⟩)
  | .div, _, some x, _, some y =>
    if y = 0 then .error .zeroDivisionError else .ok (.const (.num (x / y)))
  | .pow, some p, _, _, some y => .ok (.qty ⟨rpow p.mag y, Dim.pow p.dim y⟩)
  | .pow, _, some x, _, some y =>
    if y.den = 1 then
      if x = 0 ∧ y < 0 then .error .zeroDivisionError else .ok (.const (.num (x ^ y.num)))
    else F.bin op a b
  | _, _, _, _, _ => F.bin op a b

/-- Unary `+` and `-` on scalars (`np.positive` is not in `p_dict`, so `+q` raises: left to `F`;
`np.negative` copies the dimensionality, `dimensionality.py` 328).  The rest is left to `F`. -/
def stdUn [One K] [Neg K] (F : PyOps K) (op : PyUnOp) (a : RVal K) : Py (RVal K) :=
  match op, a.asQty, a.asNum with
  | .uSub, some p, _ => .ok (.qty ⟨- p.mag, p.dim⟩)
  | .uSub, _, some x => .ok (.const (.num (- x)))
  | .uAdd, _, some x => .ok (.const (.num x))
  | _, _, _ => F.un op a

/-- The operators used in unit strings. -/
def stdOps [One K] [Mul K] [Div K] [Neg K] [RPow K] [RatCast K] (F : PyOps K) : PyOps K :=
  ⟨stdBin F, stdUn F⟩

/-- `unit_registry[label]` with Python's grammar and operators. -/
def World.lookup [One K] [Mul K] [Div K] [Neg K] [RPow K] [RatCast K] (P : List Char → Py PyAST)
    (F : PyOps K) (w : World K) (label : List Char) : Py (RVal K) :=
  PQ.lookup (parseWith P) (stdOps F) w label

/-- `.dimensionality` of a looked-up value; a number or class has no such attribute
(`quantity.py` 34; `AttributeError` is not caught). -/
def RVal.dimensionality : RVal K → Py Dim
  | .unit u => .ok (unitDim u)
  | .qty q => .ok q.dim
  | _ => .error .attributeError

/-- The argument of `validate_dimensionality`. -/
inductive UnitsArg (K : Type _)
  | str (s : List Char)
  | quantity (q : Quantity K)
  | dim (d : Dim)
  | other

/-- `validate_unit_quantity` (`quantity.py` 19-29): a scalar or one-element array of magnitude 1. -/
def validateUnitQuantity [One K] [DecidableEq K] (q : Quantity K) : Py (Quantity K) :=
  if (q.mag.shape = [] ∨ q.mag.shape = [1]) ∧ q.mag.toList = [1] then .ok q else .error .valueError

/-- `validate_dimensionality` (`quantity.py` 31-46).  The string branch never checks the magnitude.
Looking up never raises `KeyError` in the model of the registry (`LookupError` is not a
`KeyError`), so the `except` branch is not taken. -/
def validateDimensionality [One K] [Mul K] [Div K] [Neg K] [RPow K] [RatCast K] [DecidableEq K]
    (P : List Char → Py PyAST) (F : PyOps K) (w : World K) : UnitsArg K → Py Dim
  | .str s =>
    match w.lookup P F s with
    | .error e => .error e
    | .ok v => v.dimensionality
  | .quantity q => (validateUnitQuantity q).map Quantity.dim
  | .dim d => .ok d
  | .other => .error .typeError

end PQ

import Verif.DataModel.Model

/-!
# Model of `lue_calculate`

`S` = source/framework/python/script/lue_calculate.py

The command takes a statement, and translates it to a block of Python statements which is executed. Text is modelled as
a list of characters. Python itself (parsing an expression, evaluating operators and calls, expanding environment
variables), the file system, and the functions reading and writing rasters are parameters (`World`).
-/
namespace Lue.Calculate

abbrev Str := List Char

/-! ### Python expressions -/

/-- The syntax tree of an expression. `κ` are the kinds of the nodes which are not treated specially by the script: the
operators, conditional expressions, tuples, attributes, and, for a call, the way arguments are passed (by position or by
keyword). `γ` are the constants which are not strings. Not modelled: expressions introducing names of their own (lambda
expressions, comprehensions) and formatted strings. -/
inductive Expr (κ γ : Type) where
  | str (s : Str)
  | const (c : γ)
  | name (x : Str)
  /-- A call of which the function is a name -/
  | call (f : Str) (how : κ) (args : List (Expr κ γ))
  /-- A call of which the function is some other expression -/
  | callOther (f : Expr κ γ) (how : κ) (args : List (Expr κ γ))
  | other (kind : κ) (args : List (Expr κ γ))

mutual
/-- The names in an expression, except for the names of functions called -/
def names {κ γ : Type} : Expr κ γ → List Str
  | .str _ => []
  | .const _ => []
  | .name x => [x]
  | .call _ _ args => namesL args
  | .callOther f _ args => names f ++ namesL args
  | .other _ args => namesL args
def namesL {κ γ : Type} : List (Expr κ γ) → List Str
  | [] => []
  | e :: es => names e ++ namesL es
end

mutual
/-- The names of functions called -/
def callees {κ γ : Type} : Expr κ γ → List Str
  | .str _ => []
  | .const _ => []
  | .name _ => []
  | .call f _ args => f :: calleesL args
  | .callOther f _ args => callees f ++ calleesL args
  | .other _ args => calleesL args
def calleesL {κ γ : Type} : List (Expr κ γ) → List Str
  | [] => []
  | e :: es => callees e ++ calleesL es
end

/-- Characters for which a text in double quotes in a Python program is just this text -/
def PlainChar (c : Char) : Bool := !(c = '"' || c = '\\' || c = '\n' || c = '\r' || c = '\x00')

/-- What the script does not implement itself. Python expressions are evaluated given the outcomes of their operands:
`none` is an exception. The operands of operators like `and` are only inspected when needed, hence the options. -/
structure World (κ γ V : Type) where
  /-- `os.path.expandvars` -/
  expandvars : Str → Str
  /-- `os.path.exists`: S:37-38 -/
  fileExists : Str → Bool
  /-- `ast.parse`, for a single expression -/
  parse : Str → Option (Expr κ γ)
  /-- Names in the text of an expression are identifiers: they don't contain a dot -/
  parse_names : ∀ t e, parse t = some e → ∀ x ∈ names e ++ callees e, '.' ∉ x
  /-- The value of a text put between double quotes -/
  unquote : Str → Option Str
  unquote_plain : ∀ t, t.all PlainChar = true → unquote t = some t
  /-- Module `lue.framework` -/
  lfr : V
  /-- Module `numpy` -/
  np : V
  attr : V → Str → Option V
  constant : γ → V
  /-- Calling a function -/
  apply : κ → V → List (Option V) → Option V
  /-- Evaluating some other expression -/
  sem : κ → List (Option V) → Option V
  /-- Items of a value which is unpacked in an assignment -/
  unpack : V → Option (List V)
  /-- `lfr.from_gdal` -/
  fromGdal : Str → Option (List Nat) → Option V
  /-- Whether `lfr.to_gdal` accepts a value, the name of a raster, and the name of a clone -/
  toGdal : V → Str → Str → Bool

/-! ### Paths -/

/-- The text until (excluding) the last occurrence of a character, and the text from there on; `none` if the character
does not occur (`str.rfind`) -/
def splitLast (c : Char) : Str → Option (Str × Str)
  | [] => none
  | x :: xs =>
    match splitLast c xs with
    | some (a, b) => some (x :: a, b)
    | none => if x = c then some ([], x :: xs) else none

/-- `os.path.split` (POSIX): the part until and including the last slash, and the rest -/
def splitDir (p : Str) : Str × Str :=
  match splitLast '/' p with
  | some (a, b) => (a ++ ['/'], b.drop 1)
  | none => ([], p)

/-- `os.path.basename` -/
def basename (p : Str) : Str := (splitDir p).2

/-- `os.path.splitext`: dots at the start of the name of a file don't start an extension -/
def splitext (p : Str) : Str × Str :=
  match splitLast '.' (basename p) with
  | some (a, b) => if a.any (fun c => c ≠ '.') then ((splitDir p).1 ++ a, b) else (p, [])
  | none => (p, [])

/-- `has_extension`: S:22-23 -/
def hasExtension (p : Str) : Bool := (splitext p).2 ≠ []

/-- The loop of `remove_extensions`: S:29-30. The number of iterations is bounded by the number of characters; the bound
is never reached. -/
def removeLoop : Nat → Str × Str → Str
  | 0, (b, _) => b
  | n + 1, (b, e) => if e ≠ [] then removeLoop n (splitext b) else b

/-- `remove_extensions`: S:26-34 -/
def removeExtensions (b : Str) : Str := removeLoop (b.length + 1) (splitext b)

variable {κ γ V : Type}

/-- The loop over the default extensions: S:57-62 -/
def tryExtensions (w : World κ γ V) (p : Str) : List Str → Str
  | [] => p
  | e :: es => if w.fileExists (p ++ '.' :: e) then p ++ '.' :: e else tryExtensions w p es

/-- `NormalizePathnamesVisitor(direction="input").visit_Constant`: S:48-70 -/
def normalizeInput (w : World κ γ V) (s : Str) : Str :=
  let p := w.expandvars s
  if !hasExtension p then tryExtensions w p [['t', 'i', 'f'], ['m', 'a', 'p']] else p

/-- `NormalizePathnamesVisitor(direction="output").visit_Constant`: S:48-70 -/
def normalizeOutput (w : World κ γ V) (s : Str) : Str :=
  let p := w.expandvars s
  if !hasExtension p then p ++ '.' :: ['t', 'i', 'f'] else p

/-! ### Visitors -/

mutual
/-- Visiting the strings of an expression and replacing each of them: S:41-70 -/
def mapStrings (f : Str → Str) : Expr κ γ → Expr κ γ
  | .str s => .str (f s)
  | .const c => .const c
  | .name x => .name x
  | .call g how args => .call g how (mapStringsL f args)
  | .callOther g how args => .callOther (mapStrings f g) how (mapStringsL f args)
  | .other kind args => .other kind (mapStringsL f args)
def mapStringsL (f : Str → Str) : List (Expr κ γ) → List (Expr κ γ)
  | [] => []
  | e :: es => mapStrings f e :: mapStringsL f es
end

mutual
/-- The strings collected by `UniqueStringsVisitor`, in the order of the visit: S:73-81 -/
def strings : Expr κ γ → List Str
  | .str s => [s]
  | .const _ => []
  | .name _ => []
  | .call _ _ args => stringsL args
  | .callOther f _ args => strings f ++ stringsL args
  | .other _ args => stringsL args
def stringsL : List (Expr κ γ) → List Str
  | [] => []
  | e :: es => strings e ++ stringsL es
end

/-- `dict[str, str]`, in order of insertion -/
abbrev Dict := List (Str × Str)

/-- `ReplacePathnamesVisitor.visit_Constant`, for a string: S:88-94 -/
def replaceString (d : Dict) (s : Str) : Expr κ γ :=
  match d.lookup s with
  | some v => .name v
  | none => .str s

mutual
/-- `ReplacePathnamesVisitor`: S:84-94 -/
def replace (d : Dict) : Expr κ γ → Expr κ γ
  | .str s => replaceString d s
  | .const c => .const c
  | .name x => .name x
  | .call g how args => .call g how (replaceL d args)
  | .callOther g how args => .callOther (replace d g) how (replaceL d args)
  | .other kind args => .other kind (replaceL d args)
def replaceL (d : Dict) : List (Expr κ γ) → List (Expr κ γ)
  | [] => []
  | e :: es => replace d e :: replaceL d es
end

/-- S:106-114 -/
def elementTypes : List Str :=
  ["uint8".toList, "uint32".toList, "uint64".toList, "int32".toList, "int64".toList, "float32".toList,
    "float64".toList]

/-- `QualifyOperationVisitor.visit_Name`: S:105-117 -/
def qualifyName (x : Str) : Str := if x ∈ elementTypes then "np.".toList ++ x else x

mutual
/-- `QualifyOperationVisitor`: S:97-117. The function of a call must be a name: other expressions don't have an `id`
(S:102). A string which is called becomes the name of a variable, which isn't a function of `lue.framework`: this fails
too, although later. -/
def qualify : Expr κ γ → Option (Expr κ γ)
  | .str s => some (.str s)
  | .const c => some (.const c)
  | .name x => some (.name (qualifyName x))
  | .call g how args => (qualifyL args).map (fun args' => .call ("lfr.".toList ++ qualifyName g) how args')
  | .callOther _ _ _ => none
  | .other kind args => (qualifyL args).map (fun args' => .other kind args')
def qualifyL : List (Expr κ γ) → Option (List (Expr κ γ))
  | [] => some []
  | e :: es => (qualify e).bind (fun e' => (qualifyL es).map (fun es' => e' :: es'))
end

/-! ### Names of variables -/

/-- `pathname_to_variable_name`: S:120-129 -/
def variableName (p : Str) : Str := (removeExtensions (basename p)).map (fun c => if c = '-' then '_' else c)

/-- `f"{variable_name}_{i}"`: S:139, 142 -/
def suffixed (b : Str) (i : Nat) : Str := b ++ '_' :: DataModel.name i

/-- The loop looking for a number which is not in use: S:139-140. `none`: it doesn't end. -/
def freshIndex (b : Str) (used : List Str) : Nat → Nat → Option Nat
  | 0, _ => none
  | fuel + 1, i => if suffixed b i ∈ used then freshIndex b used fuel (i + 1) else some i

/-- The loop over the pathnames: S:135-143 -/
def nameAll : List Str → Dict → Option Dict
  | [], d => some d
  | p :: ps, d =>
    (freshIndex (variableName p) (d.map (·.2)) (d.length + 1) 0).bind
      (fun i => nameAll ps (d ++ [(p, suffixed (variableName p) i)]))

/-- `pathnames_to_variable_names`: S:132-145. The pathnames are those of a set, hence they are different. -/
def variableNames (ps : List Str) : Option Dict := nameAll ps []

/-! ### Statements -/

/-- The statements of a block. Pathnames are text between double quotes. -/
inductive Stmt (κ γ : Type) where
  /-- `v = lfr.from_gdal("p")`, `v = lfr.from_gdal("p", partition_shape=(…))` -/
  | read (v p : Str) (shape : Option (List Nat))
  /-- `v = e`, or `v1, v2 = e` -/
  | assign (targets : List Str) (e : Expr κ γ)
  /-- `lfr.to_gdal(v, "p", clone_name="c")` -/
  | write (v p c : Str)

/-- `str.strip`, for the ASCII whitespace -/
def strip (t : Str) : Str := ((t.dropWhile Char.isWhitespace).reverse.dropWhile Char.isWhitespace).reverse

/-- `str.split` with a character -/
def splitOn (c : Char) : Str → List Str
  | [] => [[]]
  | x :: xs =>
    if x = c then [] :: splitOn c xs
    else
      match splitOn c xs with
      | [] => [[x]]
      | y :: ys => (x :: y) :: ys

/-- `statement.split("=", maxsplit=1)`, after `assert "=" in statement`: S:158-160 -/
def splitFirst (c : Char) : Str → Option (Str × Str)
  | [] => none
  | x :: xs => if x = c then some ([], xs) else (splitFirst c xs).map (fun ab => (x :: ab.1, ab.2))

/-- Command line options, and the order in which the elements of the two sets of strings are visited. This order depends
on the hashes of the strings, which differ between runs. -/
structure Config where
  partitionShape : Option (List Nat)
  skipClone : Bool
  orderIn : List Str → List Str
  orderOut : List Str → List Str
  orderIn_perm : ∀ l, (orderIn l).Perm l.dedup
  orderOut_perm : ∀ l, (orderOut l).Perm l.dedup

/-- The name of the clone: S:186-194, 235-237 -/
def cloneName (cfg : Config) (d : Dict) : Str :=
  match d with
  | [] => []
  | (p, _) :: _ => if p = [] then [] else if cfg.skipClone then [] else p

/-- The names on the left-hand side: S:161-165. Each of them is put between double quotes and parsed again. -/
def outputNames (w : World κ γ V) (lhs : Str) : Option (List Str) :=
  ((splitOn ',' (strip lhs)).map strip).mapM w.unquote

/-- The block, given the outputs and the expression: S:168-248 -/
def block (w : World κ γ V) (cfg : Config) (outs : List Str) (rhs : Expr κ γ) : Option (List (Stmt κ γ)) :=
  let rhs1 := mapStrings (normalizeInput w) rhs
  let outs1 := outs.map (normalizeOutput w)
  (variableNames (cfg.orderIn (strings rhs1))).bind (fun dIn =>
    (qualify (replace dIn rhs1)).bind (fun rhs2 =>
      (variableNames (cfg.orderOut outs1)).bind (fun dOut =>
        (outs1.mapM (fun p => dOut.lookup p)).map (fun targets =>
          dIn.map (fun pv => Stmt.read pv.2 pv.1 cfg.partitionShape)
            ++ [Stmt.assign targets rhs2]
            ++ dOut.map (fun pv => Stmt.write pv.2 pv.1 (cloneName cfg dIn))))))

/-- `statement_to_statement_block`: S:148-248 -/
def statementToBlock (w : World κ γ V) (cfg : Config) (statement : Str) : Option (List (Stmt κ γ)) :=
  (splitFirst '=' statement).bind (fun lr =>
    (outputNames w lr.1).bind (fun outs =>
      (w.parse (strip lr.2)).bind (fun rhs => block w cfg outs rhs)))

/-! ### Executing a block -/

/-- A raster which is written: name, value, clone -/
structure Write (V : Type) where
  path : Str
  value : V
  clone : Str
  deriving DecidableEq

/-- How executing a block ends. `unspecified`: the outcome depends on the order in which asynchronous tasks are
performed, or on text which is not a name being used as a name. -/
inductive Outcome where
  | done | failed | unspecified
  deriving DecidableEq, Repr

/-- Looking up a name: local names, and the two modules passed in: S:259-263 -/
def lookup (w : World κ γ V) (env : Str → Option V) (x : Str) : Option V :=
  match env x with
  | some v => some v
  | none => if x = "lfr".toList then some w.lfr else if x = "np".toList then some w.np else none

def attrs (w : World κ γ V) (v : Option V) : List Str → Option V
  | [] => v
  | a :: as => attrs w (v.bind (fun v => w.attr v a)) as

/-- A name in the block: the text of the name may contain dots, because of S:102 and S:115. Python treats these as
attributes. -/
def resolve (w : World κ γ V) (env : Str → Option V) (x : Str) : Option V :=
  match splitOn '.' x with
  | [] => none
  | first :: rest => attrs w (lookup w env first) rest

mutual
/-- Evaluating an expression -/
def eval (w : World κ γ V) (env : Str → Option V) : Expr κ γ → Option V
  | .str _ => none
  | .const c => some (w.constant c)
  | .name x => resolve w env x
  | .call f how args => (resolve w env f).bind (fun f' => w.apply how f' (evalL w env args))
  | .callOther f how args => (eval w env f).bind (fun f' => w.apply how f' (evalL w env args))
  | .other kind args => w.sem kind (evalL w env args)
def evalL (w : World κ γ V) (env : Str → Option V) : List (Expr κ γ) → List (Option V)
  | [] => []
  | e :: es => eval w env e :: evalL w env es
end

/-- Assigning values to names, from left to right -/
def assignAll (env : Str → Option V) : List (Str × V) → (Str → Option V)
  | [] => env
  | (x, v) :: xs => assignAll (fun y => if y = x then some v else env y) xs

/-- The values assigned: one name gets the value itself, multiple names get the items -/
def unpackTo (w : World κ γ V) (n : Nat) (v : V) : Option (List V) :=
  if n = 1 then some [v]
  else (w.unpack v).bind (fun vs => if vs.length = n then some vs else none)

/-- Executing statements. `sources`: the rasters which are (possibly still) being read. `from_gdal` reads the partitions
asynchronously, one after the other (io/source/gdal.cpp.in:294-322), and `to_gdal` first creates the raster, replacing
a raster with the same name (io/source/gdal.cpp.in:596). -/
def run (w : World κ γ V) :
    List (Stmt κ γ) → (Str → Option V) → List Str → List (Write V) → Outcome × List (Write V)
  | [], _, _, log => (.done, log)
  | .read v p shape :: stmts, env, sources, log =>
    match (w.unquote p).bind (fun p => (w.fromGdal p shape).map (fun a => (p, a))) with
    | some (p, a) => run w stmts (fun y => if y = v then some a else env y) (p :: sources) log
    | none => (.failed, log)
  | .assign targets e :: stmts, env, sources, log =>
    match (eval w env e).bind (fun v => unpackTo w targets.length v) with
    | some vs => run w stmts (assignAll env (targets.zip vs)) sources log
    | none => (.failed, log)
  | .write v p c :: stmts, env, sources, log =>
    match (w.unquote p).bind (fun p => (w.unquote c).bind (fun c => (env v).map (fun a => (p, c, a)))) with
    | some (p, c, a) =>
      if p ∈ sources then (.unspecified, log)
      else if w.toGdal a p c then run w stmts env sources (log ++ [⟨p, a, c⟩]) else (.failed, log)
    | none => (.failed, log)

/-- ASCII identifiers. Keywords don't end in an underscore and a number. -/
def isIdentifier : Str → Bool
  | [] => false
  | c :: cs => (c.isAlpha || c = '_') && cs.all (fun c => c.isAlpha || c.isDigit || c = '_')

/-- The names assigned by a statement -/
def assigned : Stmt κ γ → List Str
  | .read v _ _ => [v]
  | .assign targets _ => targets
  | .write _ _ _ => []

/-- `execute_statement_block`: S:251-263. The block is compiled first. If some name is not an identifier this normally
results in a `SyntaxError`. -/
def executeBlock (w : World κ γ V) (stmts : List (Stmt κ γ)) : Outcome × List (Write V) :=
  if (stmts.flatMap assigned).all isIdentifier then run w stmts (fun _ => none) [] [] else (.unspecified, [])

/-- `execute`: S:266-280 -/
def execute (w : World κ γ V) (cfg : Config) (statement : Str) : Outcome × List (Write V) :=
  match statementToBlock w cfg statement with
  | some stmts => executeBlock w stmts
  | none => (.failed, [])

end Lue.Calculate

/-
The text of the cache file: `json.dump(obj, f, indent=2)` and `json.load(f)` as called in
/repo/karabo_data/run_files_map.py:25 and :87-88. The functions in the first two parts are those of Python's package `json`
(its encoder with `ensure_ascii`, and its scanner, in the version written in C), not of karabo_data.
Simplification: Python's limit of nested calls is not modelled.
-/
import Verif.Model.FilesMap

namespace KD

/-- A value of a JSON document. A float is kept as it is written. A string is a list of code points (as a Python `str` is), since a JSON
text can have lone surrogates. -/
inductive Json where
  | null
  | bool (b : Bool)
  | int (i : Int)
  | float (text : Str)
  | str (s : List Nat)
  | arr (l : List Json)
  | obj (l : List (List Nat × Json))

/-! ### json.dump(obj, f, indent=2) -/

/-- A hexadecimal digit. -/
def hexDigit (n : Nat) : Char := if n < 10 then Char.ofNat (48 + n) else Char.ofNat (87 + n)

/-- `'\\u{0:04x}'`. -/
def uEscape (n : Nat) : Str :=
  ['\\', 'u', hexDigit (n / 4096 % 16), hexDigit (n / 256 % 16), hexDigit (n / 16 % 16), hexDigit (n % 16)]

/-- One character of a string with `ensure_ascii=True`: `py_encode_basestring_ascii`. -/
def jsonChar (n : Nat) : Str :=
  if n = 34 then ch! "\\\"" else if n = 92 then ch! "\\\\"
  else if n = 8 then ch! "\\b" else if n = 12 then ch! "\\f" else if n = 10 then ch! "\\n" else if n = 13 then ch! "\\r"
  else if n = 9 then ch! "\\t"
  else if 32 ≤ n ∧ n ≤ 126 then [Char.ofNat n]
  else if n < 65536 then uEscape n
  else uEscape (0xd800 + (n - 0x10000) / 1024 % 1024) ++ uEscape (0xdc00 + (n - 0x10000) % 1024)

/-- A string in quotes. -/
def jsonStr (s : List Nat) : Str := ch! "\"" ++ s.flatMap jsonChar ++ ch! "\""

/-- `int.__repr__`. -/
def jsonInt : Int → Str
  | .ofNat n => natStr n
  | .negSucc n => '-' :: natStr (n + 1)

/-- `'\n' + indent * level`, with two spaces for each level. -/
def jsonLine (level : Nat) : Str := '\n' :: List.replicate (2 * level) ' '

mutual
/-- `_iterencode`, with `indent=2`: the items of a list or dict on lines of their own, separated by "," and, after a key, ": ". -/
def jsonDump (level : Nat) : Json → Str
  | .null => ch! "null"
  | .bool true => ch! "true"
  | .bool false => ch! "false"
  | .int i => jsonInt i
  | .float t => t
  | .str s => jsonStr s
  | .arr [] => ch! "[]"
  | .arr (v :: vs) => '[' :: (jsonLine (level + 1) ++ (jsonDump (level + 1) v ++ jsonItems level vs))
  | .obj [] => ch! "{}"
  | .obj (kv :: kvs) =>
    '{' :: (jsonLine (level + 1) ++ (jsonStr kv.1 ++ (':' :: ' ' :: (jsonDump (level + 1) kv.2 ++ jsonPairs level kvs))))
/-- The rest of a list after its first item. -/
def jsonItems (level : Nat) : List Json → Str
  | [] => jsonLine level ++ [']']
  | v :: vs => ',' :: (jsonLine (level + 1) ++ (jsonDump (level + 1) v ++ jsonItems level vs))
/-- The rest of a dict after its first item. -/
def jsonPairs (level : Nat) : List (List Nat × Json) → Str
  | [] => jsonLine level ++ ['}']
  | kv :: kvs =>
    ',' :: (jsonLine (level + 1) ++ (jsonStr kv.1 ++ (':' :: ' ' :: (jsonDump (level + 1) kv.2 ++ jsonPairs level kvs))))
end

/-! ### json.load(f) -/

/-- White space: `' \t\n\r'`. -/
def isJsonSpace (c : Char) : Bool := c = ' ' || c = '\t' || c = '\n' || c = '\r'

/-- White space between the parts of a JSON text is skipped by `json.load`, run_files_map.py:87. -/
def skipSpace (s : Str) : Str := s.dropWhile isJsonSpace

/-- The value of a hexadecimal digit. -/
def hexValue (c : Char) : Option Nat :=
  if 48 ≤ c.toNat ∧ c.toNat ≤ 57 then some (c.toNat - 48)
  else if 97 ≤ c.toNat ∧ c.toNat ≤ 102 then some (c.toNat - 87)
  else if 65 ≤ c.toNat ∧ c.toNat ≤ 70 then some (c.toNat - 55)
  else none

/-- The number written with four hexadecimal digits after `\u`, as read by `json.load`, run_files_map.py:87. -/
def hexFour (a b c d : Char) : Option Nat :=
  match hexValue a, hexValue b, hexValue c, hexValue d with
  | some a, some b, some c, some d => some (a * 4096 + b * 256 + c * 16 + d)
  | _, _, _, _ => none

/-- `BACKSLASH`. -/
def unescape (c : Char) : Option Nat :=
  if c = '"' then some 34 else if c = '\\' then some 92 else if c = '/' then some 47 else if c = 'b' then some 8
  else if c = 'f' then some 12 else if c = 'n' then some 10 else if c = 'r' then some 13 else if c = 't' then some 9 else none

/-- One character of a string, which begins with `c`; with True if it is written as `\uXXXX`. Control characters are not allowed. -/
def scanUnit (c : Char) (r : Str) : Option ((Nat × Bool) × Str) :=
  if c = '\\' then
    match r with
    | [] => none
    | e :: r =>
      if e = 'u' then
        match r with
        | a :: b :: c :: d :: r =>
          match hexFour a b c d with
          | none => none
          | some n => some ((n, true), r)
        | _ => none
      else
        match unescape e with
        | none => none
        | some n => some ((n, false), r)
  else if c.toNat < 32 then none
  else some ((c.toNat, false), r)

/-- The characters up to the closing quote, and the text after it (`scanstring`). -/
def scanUnits : Nat → Str → Option (List (Nat × Bool) × Str)
  | 0, _ => none
  | _ + 1, [] => none
  | n + 1, c :: r =>
    if c = '"' then some ([], r)
    else
      match scanUnit c r with
      | none => none
      | some (u, r) =>
        match scanUnits n r with
        | none => none
        | some (us, r) => some (u :: us, r)

/-- Is it a high surrogate of UTF-16? As in `json.load`, run_files_map.py:87. -/
def isHigh (n : Nat) : Bool := 0xd800 ≤ n && n ≤ 0xdbff
/-- Is it a low surrogate of UTF-16? As in `json.load`, run_files_map.py:87. -/
def isLow (n : Nat) : Bool := 0xdc00 ≤ n && n ≤ 0xdfff

/-- A high and a low surrogate, both written as `\uXXXX`, are read as one character. -/
def joinUnits : List (Nat × Bool) → List Nat
  | [] => []
  | [u] => [u.1]
  | u :: w :: us =>
    if u.2 = true ∧ w.2 = true ∧ isHigh u.1 = true ∧ isLow w.1 = true then
      (0x10000 + (u.1 - 0xd800) * 1024 + (w.1 - 0xdc00)) :: joinUnits us
    else u.1 :: joinUnits (w :: us)

/-- A string after its opening quote. -/
def scanString (s : Str) : Option (List Nat × Str) :=
  match scanUnits (s.length + 1) s with
  | none => none
  | some (us, r) => some (joinUnits us, r)

/-- Is it one of the digits 0 to 9, of which JSON makes numbers? As in `json.load`, run_files_map.py:87. -/
def isAsciiDigit (c : Char) : Bool := 48 ≤ c.toNat && c.toNat ≤ 57

/-- The digits at the start of a text, and the rest. -/
def spanDigits (s : Str) : Str × Str := (s.takeWhile isAsciiDigit, s.dropWhile isAsciiDigit)

/-- The integer part without sign: `0|[1-9]\d*`. -/
def scanIntPart : Str → Option (Str × Str)
  | [] => none
  | c :: r =>
    if c = '0' then some (['0'], r)
    else if isAsciiDigit c then some (c :: (spanDigits r).1, (spanDigits r).2)
    else none

/-- `(\.\d+)?`. -/
def scanFrac : Str → Str × Str
  | [] => ([], [])
  | c :: r =>
    if c = '.' then
      match spanDigits r with
      | ([], _) => ([], c :: r)
      | (ds, r') => (c :: ds, r')
    else ([], c :: r)

/-- `[-+]?`. -/
def scanSign : Str → Str × Str
  | [] => ([], [])
  | c :: r => if c = '-' ∨ c = '+' then ([c], r) else ([], c :: r)

/-- `([eE][-+]?\d+)?`. -/
def scanExp : Str → Str × Str
  | [] => ([], [])
  | c :: r =>
    if c = 'e' ∨ c = 'E' then
      match spanDigits (scanSign r).2 with
      | ([], _) => ([], c :: r)
      | (ds, r') => (c :: ((scanSign r).1 ++ ds), r')
    else ([], c :: r)

/-- A number, `NUMBER_RE`: an int if it has neither fraction nor exponent. `neg` is True after a minus sign. -/
def scanNumber (neg : Bool) (s : Str) : Option (Json × Str) :=
  match scanIntPart s with
  | none => none
  | some (i, r) =>
    let f := scanFrac r
    let e := scanExp f.2
    if f.1 = [] ∧ e.1 = [] then
      some (.int (if neg then - (Nat.ofDigitChars 10 i 0 : Int) else Nat.ofDigitChars 10 i 0), e.2)
    else some (.float ((if neg then ['-'] else []) ++ (i ++ (f.1 ++ e.1))), e.2)

/-- The text after a word at its start. -/
def afterWord : Str → Str → Option Str
  | [], s => some s
  | _ :: _, [] => none
  | c :: w, d :: s => if c = d then afterWord w s else none

/-- A word at the start of a text. -/
def scanWord (w : Str) (v : Json) (s : Str) : Option (Json × Str) :=
  match afterWord w s with
  | some r => some (v, r)
  | none => none

/-- Words and numbers, by their first character. -/
def scanAtom : Str → Option (Json × Str)
  | [] => none
  | c :: r =>
    if c = 'n' then scanWord (ch! "ull") .null r
    else if c = 't' then scanWord (ch! "rue") (.bool true) r
    else if c = 'f' then scanWord (ch! "alse") (.bool false) r
    else if c = '-' then
      match scanNumber true r with
      | some x => some x
      | none => scanWord (ch! "Infinity") (.float (ch! "-Infinity")) r
    else if c = 'N' then scanWord (ch! "aN") (.float (ch! "NaN")) r
    else if c = 'I' then scanWord (ch! "nfinity") (.float (ch! "Infinity")) r
    else scanNumber false (c :: r)

mutual
/-- `scan_once`: a value at the start of the text, and the text after it. None stands for JSONDecodeError; the first argument bounds the
nesting and is large enough in `jsonLoads`. -/
def scanValue : Nat → Str → Option (Json × Str)
  | 0, _ => none
  | n + 1, s =>
    match s with
    | [] => none
    | c :: r =>
      if c = '"' then
        match scanString r with
        | none => none
        | some (x, r) => some (.str x, r)
      else if c = '[' then
        match skipSpace r with
        | [] => none
        | d :: r' =>
          if d = ']' then some (.arr [], r')
          else
            match scanItems n (d :: r') with
            | none => none
            | some (l, r) => some (.arr l, r)
      else if c = '{' then
        match skipSpace r with
        | [] => none
        | d :: r' =>
          if d = '}' then some (.obj [], r')
          else
            match scanPairs n (d :: r') with
            | none => none
            | some (l, r) => some (.obj (Dict.update [] l), r)
      else scanAtom (c :: r)
/-- `JSONArray`, from the first value on. -/
def scanItems : Nat → Str → Option (List Json × Str)
  | 0, _ => none
  | n + 1, s =>
    match scanValue n s with
    | none => none
    | some (v, r) =>
      match skipSpace r with
      | [] => none
      | c :: r =>
        if c = ']' then some ([v], r)
        else if c = ',' then
          match scanItems n (skipSpace r) with
          | none => none
          | some (vs, r) => some (v :: vs, r)
        else none
/-- `JSONObject`, from the first key on. -/
def scanPairs : Nat → Str → Option (List (List Nat × Json) × Str)
  | 0, _ => none
  | n + 1, s =>
    match s with
    | [] => none
    | q :: s =>
      if q = '"' then
        match scanString s with
        | none => none
        | some (k, r) =>
          match skipSpace r with
          | [] => none
          | c :: r =>
            if c = ':' then
              match scanValue n (skipSpace r) with
              | none => none
              | some (v, r) =>
                match skipSpace r with
                | [] => none
                | c :: r =>
                  if c = '}' then some ([(k, v)], r)
                  else if c = ',' then
                    match scanPairs n (skipSpace r) with
                    | none => none
                    | some (kvs, r) => some ((k, v) :: kvs, r)
                  else none
            else none
      else none
end

/-- `json.loads(s)`: nothing but white space may be around the value. -/
def jsonLoads (s : Str) : Option Json :=
  match scanValue (2 * s.length + 2) (skipSpace s) with
  | none => none
  | some (v, r) => if skipSpace r = [] then some v else none

/-! ### The document with the entries of the run files map -/

/-- The code points of a string. -/
def points (s : Str) : List Nat := s.map Char.toNat

/-- A dictionary of the document as it is written, run_files_map.py:155-162, with keys left out which the entry does not have (entries can
come from an older cache file). `repr` is the text of a modification time.
Simplification: keys are in the order in which `save` makes them, also for entries from an older cache file. -/
def infoJson (repr : Nat → Str) (i : MapInfo) : Json :=
  .obj ((match i.filename with | some f => [(points (ch! "filename"), .str (points f))] | none => []) ++
    (match i.mtime with | some m => [(points (ch! "mtime"), .float (repr m))] | none => []) ++
    (match i.size with | some n => [(points (ch! "size"), .int n)] | none => []) ++
    (match i.trainIds with | some l => [(points (ch! "train_ids"), .arr (l.map fun (t : Nat) => .int t))] | none => []) ++
    (match i.controlSources with | some l => [(points (ch! "control_sources"), .arr (l.map fun s => .str (points s)))] | none => []) ++
    (match i.instrumentSources with | some l => [(points (ch! "instrument_sources"), .arr (l.map fun s => .str (points s)))] | none => []))

/-- What `atomic_dump(save_data, path, indent=2)` writes, run_files_map.py:25 and :169. -/
def cacheText (repr : Nat → Str) (infos : List MapInfo) : Str := jsonDump 0 (.arr (infos.map (infoJson repr)))

/-- Code points which are characters, i.e. not surrogates. -/
def strOf : List Nat → Option Str
  | [] => some []
  | n :: l =>
    if Nat.isValidChar n then
      match strOf l with
      | none => none
      | some s => some (Char.ofNat n :: s)
    else none

/-- `[f(x) for x in l]`, if all have the right type. -/
def mapO {α β : Type} (f : α → Option β) : List α → Option (List β)
  | [] => some []
  | a :: l =>
    match f a, mapO f l with
    | some b, some bs => some (b :: bs)
    | _, _ => none

/-- A str in the loaded data, run_files_map.py:87-101. -/
def asStr : Json → Option Str
  | .str s => strOf s
  | _ => none

/-- A number in the loaded data which is not negative, run_files_map.py:87-101. -/
def asNat : Json → Option Nat
  | .int i => if 0 ≤ i then some i.toNat else none
  | _ => none

/-- A list in the loaded data, run_files_map.py:87-101. -/
def asList {α : Type} (f : Json → Option α) : Json → Option (List α)
  | .arr l => mapO f l
  | _ => none

/-- A key of a dictionary: missing, or with a value of the right type; None if its type is another. -/
def fieldOf {α : Type} (f : Json → Option α) (l : List (List Nat × Json)) (key : Str) : Option (Option α) :=
  match Dict.get? l (points key) with
  | none => some none
  | some v =>
    match f v with
    | none => none
    | some a => some (some a)

/-- A time of modification in the loaded data, run_files_map.py:87-101. -/
def asTime (float : Str → Nat) : Json → Option Nat
  | .float t => some (float t)
  | _ => none

/-- What `load` and `get` use of one dictionary of the document, run_files_map.py:95-102 and :117-123. `float` is Python's reading of a
float. None if a value has a type other than those written by `save`: then the entry is outside of the model `MapInfo`. -/
def infoOfJson (float : Str → Nat) : Json → Option MapInfo
  | .obj l =>
    match fieldOf asStr l (ch! "filename"), fieldOf (asTime float) l (ch! "mtime"), fieldOf asNat l (ch! "size"),
      fieldOf (asList asNat) l (ch! "train_ids"), fieldOf (asList asStr) l (ch! "control_sources"),
      fieldOf (asList asStr) l (ch! "instrument_sources") with
    | some a, some b, some c, some d, some e, some f => some ⟨a, b, c, d, e, f⟩
    | _, _, _, _, _, _ => none
  | _ => none

/-- What `load` makes of the text of a cache file, run_files_map.py:85-93: JSONDecodeError is caught. None if it is a JSON document of another
kind, which is outside of the model. -/
def cacheOfText (float : Str → Nat) (text : Str) : Option CacheFile :=
  match jsonLoads text with
  | none => some .garbled
  | some v =>
    match asList (infoOfJson float) v with
    | none => none
    | some infos => some (.document infos)

end KD

import Verif.Types

/-!
# Reading XML

A tokeniser.  It stands for the `quick-xml` reader, which is not part of the repository: which events
`quick-xml` reports for a text is an assumption of this model (stated in DESIGN.md).  It covers start,
end and empty tags, attributes in double or single quotes, texts, references, an XML declaration,
comments and CDATA sections; document type declarations are refused here.  An attribute may occur
twice (the crate reads attributes `with_checks(false)`).

No function of the crate has an arm for comments or for CDATA sections, so that both end in the last arm
of each loop (`unused_event`, src/io/read.rs:5041-5055) and are passed over.  They do end a text.

The tokens are those of the text, character by character; `events` groups the characters into the
text events of `quick-xml`, which end at a tag or at a reference.
-/

set_option autoImplicit false

namespace Verif.Xml

/-- A token.  The values of the attributes are as they are in the text; it is the reader that decides
whether to unescape them. -/
inductive Tok where
  | start (name : Str) (attrs : List (Str × Str))
  | empty (name : Str) (attrs : List (Str × Str))
  | «end» (name : Str)
  | chr (c : Char)
  | ref (name : Str)
  /-- A CDATA section with its text, or a comment, which has none. -/
  | skip (text : Str)
  deriving DecidableEq

/-- The value of a digit, `char::to_digit`, which `u32::from_str_radix` uses: upper or lower case. -/
def digitVal (base : Nat) (c : Char) : Option Nat :=
  if '0' ≤ c ∧ c ≤ '9' ∧ c.toNat - 48 < base then some (c.toNat - 48)
  else if 'a' ≤ c ∧ c ≤ 'z' ∧ c.toNat - 87 < base then some (c.toNat - 87)
  else if 'A' ≤ c ∧ c ≤ 'Z' ∧ c.toNat - 55 < base then some (c.toNat - 55)
  else none

/-- The digits of a number behind those that give `acc`. -/
def radixFrom (base : Nat) : Nat → Str → Option Nat
  | acc, [] => some acc
  | acc, c :: s =>
    match digitVal base c with
    | none => none
    | some d => radixFrom base (acc * base + d) s

/-- `u32::from_str_radix` of a text without sign, as `quick-xml` calls it.  Simplification: numbers that do not fit into
an `u32` are numbers here; they are no characters either way. -/
def parseRadix (base : Nat) : Str → Option Nat
  | [] => none
  | c :: s => radixFrom base 0 (c :: s)

/-- `char::from_u32`; `quick-xml` refuses the number 0. -/
def charOf (n : Nat) : Option Char := if n = 0 then none else if n.isValidChar then some (Char.ofNat n) else none

/-- `BytesRef::resolve_char_ref` of `quick-xml` 0.38, which src/io/read.rs:5014 calls: `none` if the reference is not
numeric, `some none` if it is and is not a character, which is an error. -/
def charRef (n : Str) : Option (Option Char) :=
  match n with
  | [] => none
  | a :: d =>
    if a = '#' then
      if d.head? = some 'x' then some ((parseRadix 16 d.tail).bind charOf) else some ((parseRadix 10 d).bind charOf)
    else none

/-- `entity`, src/io/read.rs:5013-5027: numeric references and the five predefined entities; any other reference stays
as it is.  A numeric reference that is not a character is an error there, and does not pass `step` here. -/
def entity (n : Str) : Str :=
  if n = ['l', 't'] then ['<']
  else if n = ['g', 't'] then ['>']
  else if n = ['a', 'm', 'p'] then ['&']
  else if n = ['a', 'p', 'o', 's'] then ['\'']
  else if n = ['q', 'u', 'o', 't'] then ['"']
  else
    match charRef n with
    | some (some c) => [c]
    | _ => '&' :: n ++ [';']

/-- The value of a reference in an attribute: numeric, or one of the predefined entities. -/
def predefined (n : Str) : Option Str :=
  if n = ['l', 't'] then some ['<']
  else if n = ['g', 't'] then some ['>']
  else if n = ['a', 'm', 'p'] then some ['&']
  else if n = ['a', 'p', 'o', 's'] then some ['\'']
  else if n = ['q', 'u', 'o', 't'] then some ['"']
  else
    match charRef n with
    | some (some c) => some [c]
    | _ => none

/-- `decode_and_unescape_value`: the references in an attribute value are replaced; an unknown or
unfinished one is an error.  The first argument is the reference being read. -/
def unescapeFrom : Option Str → Str → Option Str
  | none, [] => some []
  | some _, [] => none
  | none, c :: s => if c = '&' then unescapeFrom (some []) s else (unescapeFrom none s).map (c :: ·)
  | some n, c :: s =>
    if c = ';' then
      match predefined n with
      | some v => (unescapeFrom none s).map (v ++ ·)
      | none => none
    else unescapeFrom (some (n ++ [c])) s

/-- `decode_and_unescape_value` of an attribute. -/
def unescape (s : Str) : Option Str := unescapeFrom none s

/-- `decode_and_unescape_value` for each attribute; any error is an error. -/
def unescapeAttrs : List (Str × Str) → Option (List (Str × Str))
  | [] => some []
  | (k, v) :: as =>
    match unescape v, unescapeAttrs as with
    | some v', some as' => some ((k, v') :: as')
    | _, _ => none

/-- White space in tags. -/
def isWs (c : Char) : Bool := c == ' ' || c == '\t' || c == '\r' || c == '\n'

/-- Where the tokeniser is. -/
inductive St where
  /-- Between tags. -/
  | text
  /-- After `&`. -/
  | ref (acc : Str)
  /-- After `<`. -/
  | lt
  /-- In `<?…?>`. -/
  | decl
  /-- After `<!`. -/
  | bang (acc : Str)
  /-- In a comment; the number of dashes just read, at most two. -/
  | comment (dashes : Nat)
  /-- In a CDATA section; its text so far in reverse. -/
  | cdata (rev : Str)
  /-- In an end tag. -/
  | endName (acc : Str)
  /-- In white space at the end of an end tag. -/
  | endWs (acc : Str)
  /-- In the name of a start tag. -/
  | name (acc : Str)
  /-- Between the attributes. -/
  | attrs (name : Str) (as : List (Str × Str))
  /-- After the slash of an empty tag. -/
  | slash (name : Str) (as : List (Str × Str))
  /-- In the name of an attribute. -/
  | key (name : Str) (as : List (Str × Str)) (acc : Str)
  /-- Behind the name of an attribute. -/
  | keyWs (name : Str) (as : List (Str × Str)) (acc : Str)
  /-- After the equals sign. -/
  | eq (name : Str) (as : List (Str × Str)) (k : Str)
  /-- In the value of an attribute. -/
  | val (name : Str) (as : List (Str × Str)) (k acc : Str)
  /-- In the value of an attribute in single quotes. -/
  | val1 (name : Str) (as : List (Str × Str)) (k acc : Str)
  deriving DecidableEq

/-- What begins with `<!`. -/
def cdataStart : Str := ['[', 'C', 'D', 'A', 'T', 'A', '[']
def commentStart : Str := ['-', '-']

/-- One character.  Simplification: processing instructions end at the first `>` and do not end a text.
Simplification: a numeric reference that is not a character is refused wherever it is; in the code only where the text is
used. -/
def step (st : St) (c : Char) : Option (St × List Tok) :=
  match st with
  | .text =>
    if c = '<' then some (.lt, [])
    else if c = '&' then some (.ref [], [])
    else some (.text, [.chr c])
  | .ref acc =>
    if c = ';' then (if charRef acc = some none then none else some (.text, [.ref acc]))
    else if c = '<' ∨ c = '&' then none
    else some (.ref (acc ++ [c]), [])
  | .lt =>
    if c = '/' then some (.endName [], [])
    else if c = '?' then some (.decl, [])
    else if c = '!' then some (.bang [], [])
    else if c = '>' ∨ c = '<' ∨ isWs c = true then none
    else some (.name [c], [])
  | .decl => if c = '>' then some (.text, []) else some (.decl, [])
  | .bang acc =>
    if acc ++ [c] = commentStart then some (.comment 0, [])
    else if acc ++ [c] = cdataStart then some (.cdata [], [])
    else if (acc ++ [c]).isPrefixOf commentStart ∨ (acc ++ [c]).isPrefixOf cdataStart then some (.bang (acc ++ [c]), [])
    else none
  | .comment d =>
    if c = '>' ∧ 2 ≤ d then some (.text, [.skip []])
    else if c = '-' then some (.comment (min 2 (d + 1)), [])
    else some (.comment 0, [])
  | .cdata rev =>
    if c = '>' ∧ rev.take 2 = [']', ']'] then some (.text, [.skip (rev.drop 2).reverse])
    else some (.cdata (c :: rev), [])
  | .endName acc =>
    if c = '>' then some (.text, [.end acc])
    else if isWs c then some (.endWs acc, [])
    else some (.endName (acc ++ [c]), [])
  | .endWs acc =>
    if c = '>' then some (.text, [.end acc]) else if isWs c then some (.endWs acc, []) else none
  | .name acc =>
    if c = '>' then some (.text, [.start acc []])
    else if c = '/' then some (.slash acc [], [])
    else if isWs c then some (.attrs acc [], [])
    else some (.name (acc ++ [c]), [])
  | .attrs n as =>
    if c = '>' then some (.text, [.start n as])
    else if c = '/' then some (.slash n as, [])
    else if isWs c then some (.attrs n as, [])
    else some (.key n as [c], [])
  | .slash n as => if c = '>' then some (.text, [.empty n as]) else none
  | .key n as acc =>
    if c = '=' then some (.eq n as acc, [])
    else if isWs c then some (.keyWs n as acc, [])
    else if c = '>' ∨ c = '/' then none
    else some (.key n as (acc ++ [c]), [])
  | .keyWs n as acc =>
    if c = '=' then some (.eq n as acc, []) else if isWs c then some (.keyWs n as acc, []) else none
  | .eq n as k =>
    if c = '"' then some (.val n as k [], [])
    else if c = '\'' then some (.val1 n as k [], [])
    else if isWs c then some (.eq n as k, [])
    else none
  | .val n as k acc =>
    if c = '"' then some (.attrs n (as ++ [(k, acc)]), [])
    else some (.val n as k (acc ++ [c]), [])
  | .val1 n as k acc =>
    if c = '\'' then some (.attrs n (as ++ [(k, acc)]), [])
    else some (.val1 n as k (acc ++ [c]), [])

/-- The tokens of a text, from a state. -/
def tokFrom (st : St) : Str → Option (St × List Tok)
  | [] => some (st, [])
  | c :: s =>
    match step st c with
    | none => none
    | some (st', ts) =>
      match tokFrom st' s with
      | none => none
      | some (st'', ts') => some (st'', ts ++ ts')

/-- The tokens of a document; `none` if it is not one (of the kind described above). -/
def tokenize (s : Str) : Option (List Tok) :=
  match tokFrom .text s with
  | some (.text, ts) => some ts
  | _ => none

/-- An event of the `quick-xml` reader. -/
inductive Event where
  | start (name : Str) (attrs : List (Str × Str))
  | empty (name : Str) (attrs : List (Str × Str))
  | «end» (name : Str)
  | text (s : Str)
  | ref (name : Str)
  deriving DecidableEq

/-- The text goes on with a character. -/
def goesOn : List Tok → Bool
  | .skip _ :: _ => false
  | _ => true

/-- Consecutive characters are one text event; comments and CDATA sections are passed over. -/
def events : List Tok → List Event
  | [] => []
  | .chr c :: ts =>
    match goesOn ts, events ts with
    | true, .text s :: es => .text (c :: s) :: es
    | _, es => .text [c] :: es
  | .skip _ :: ts => events ts
  | .start n as :: ts => .start n as :: events ts
  | .empty n as :: ts => .empty n as :: events ts
  | .end n :: ts => .end n :: events ts
  | .ref n :: ts => .ref n :: events ts

end Verif.Xml

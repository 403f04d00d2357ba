import Verif.Types

/-!
# The XML writer (src/io/xmlwriter.rs)

Built without the feature `check_xml`, the writer keeps no stack of open elements and does not
check anything.  The underlying `io::Write` is modelled as one that accepts everything; failing
writers are a topic of their own (`Verif.Save`).
-/

set_option autoImplicit false

namespace Verif.Xml

/-- `escape`, src/io/xmlwriter.rs:305-339, for one character.  The code works on the bytes of the
text; all special bytes are ASCII, and no byte of a multi-byte character is, so this is the same as
working on characters. -/
def escapeChar (c : Char) : Str :=
  if c = '"' then ['&', 'q', 'u', 'o', 't', ';']
  else if c = '\'' then ['&', 'a', 'p', 'o', 's', ';']
  else if c = '&' then ['&', 'a', 'm', 'p', ';']
  else if c = '<' then ['&', 'l', 't', ';']
  else if c = '>' then ['&', 'g', 't', ';']
  else [c]

/-- `escape`, src/io/xmlwriter.rs:305-339. -/
def escape : Str → Str
  | [] => []
  | c :: s => escapeChar c ++ escape s

/-- `escape_name`, src/io/xmlwriter.rs:342-379: like `escape`, and a backslash is doubled. -/
def escapeName : Str → Str
  | [] => []
  | c :: s => (if c = '\\' then ['\\', '\\'] else escapeChar c) ++ escapeName s

/-- `enum Open`, src/io/xmlwriter.rs:9-13. -/
inductive Open where
  | none | elem | empty
  deriving DecidableEq

/-- `XmlWriter`, src/io/xmlwriter.rs:71-81: what went to the underlying writer, and what is still
in the buffer. -/
structure Writer where
  written : Str := []
  buf : Str := []
  «open» : Open := .none
  lineBreak : Bool := false
  deriving DecidableEq

namespace Writer

/-- `self.buf.push_str(..)`. -/
def push (w : Writer) (s : Str) : Writer := { w with buf := w.buf ++ s }

/-- `write_buf`, src/io/xmlwriter.rs:444-448. -/
def writeBuf (w : Writer) : Writer := { w with written := w.written ++ w.buf, buf := [] }

/-- `if self.line_break { self.buf.push('\n') }`. -/
def newline (w : Writer) : Writer := if w.lineBreak then w.push ['\n'] else w

/-- `close_elem`, src/io/xmlwriter.rs:227-244. -/
def closeElem (w : Writer) : Writer :=
  let w :=
    match w.open with
    | .none => w
    | .elem => w.push ['>']
    | .empty => (w.push ['/', '>']).newline
  writeBuf { w with «open» := .none }

/-- `dtd`, src/io/xmlwriter.rs:114-123. -/
def dtd (w : Writer) (encoding : Str) : Writer :=
  ((w.push "<?xml version=\"1.0\" encoding=\"".toList).push encoding |>.push "\" ?>\n".toList).newline

/-- `elem_text`, src/io/xmlwriter.rs:126-148. -/
def elemText (w : Writer) (name text : Str) : Writer :=
  (w.closeElem.push ('<' :: name ++ '>' :: text ++ '<' :: '/' :: name ++ ['>'])).newline

/-- `elem_text_esc`, src/io/xmlwriter.rs:152-174. -/
def elemTextEsc (w : Writer) (name text : Str) : Writer :=
  (w.closeElem.push ('<' :: name ++ '>' :: escape text ++ '<' :: '/' :: name ++ ['>'])).newline

/-- `elem`, src/io/xmlwriter.rs:191-200. -/
def elem (w : Writer) (name : Str) : Writer :=
  { w.closeElem.push ('<' :: name) with «open» := .elem }

/-- `elem_if`, src/io/xmlwriter.rs:203-214. -/
def elemIf (w : Writer) (hasContent : Bool) (name : Str) : Writer :=
  { w.closeElem.push ('<' :: name) with «open» := if hasContent then .elem else .empty }

/-- `empty`, src/io/xmlwriter.rs:217-224. -/
def empty (w : Writer) (name : Str) : Writer :=
  { w.closeElem.push ('<' :: name) with «open» := .empty }

/-- `attr_str` and `attr`, src/io/xmlwriter.rs:248-281. -/
def attr (w : Writer) (name value : Str) : Writer :=
  w.push (' ' :: name ++ '=' :: '"' :: value ++ ['"'])

/-- `attr_esc`, src/io/xmlwriter.rs:284-302. -/
def attrEsc (w : Writer) (name value : Str) : Writer :=
  w.push (' ' :: escapeName name ++ '=' :: '"' :: escape value ++ ['"'])

/-- `text_str` and `text`, src/io/xmlwriter.rs:382-393. -/
def text (w : Writer) (s : Str) : Writer := w.closeElem.push s

/-- `text_esc`, src/io/xmlwriter.rs:396-400. -/
def textEsc (w : Writer) (s : Str) : Writer := w.closeElem.push (escape s)

/-- `end_elem_if`, src/io/xmlwriter.rs:403-436. -/
def endElemIf (w : Writer) (hasContent : Bool) (name : Str) : Writer :=
  if hasContent then (w.closeElem.push ('<' :: '/' :: name ++ ['>'])).newline else w.closeElem

/-- `end_elem`, src/io/xmlwriter.rs:440-442. -/
def endElem (w : Writer) (name : Str) : Writer := w.endElemIf true name

/-- `close`, src/io/xmlwriter.rs:451-461: flushes the buffer.  (A start tag that is still open is not
closed.) -/
def close (w : Writer) : Str := w.writeBuf.written

end Writer

/-- A call of one of the functions of the writer. -/
inductive Call where
  | dtd (encoding : Str)
  | elem (name : Str)
  | elemIf (hasContent : Bool) (name : Str)
  | empty (name : Str)
  | attr (name value : Str)
  | attrEsc (name value : Str)
  | text (s : Str)
  | textEsc (s : Str)
  | elemText (name s : Str)
  | elemTextEsc (name s : Str)
  | endElem (name : Str)
  | endElemIf (hasContent : Bool) (name : Str)
  deriving DecidableEq

/-- The effect of a call. -/
def Call.run (w : Writer) : Call → Writer
  | .dtd e => w.dtd e
  | .elem n => w.elem n
  | .elemIf b n => w.elemIf b n
  | .empty n => w.empty n
  | .attr n v => w.attr n v
  | .attrEsc n v => w.attrEsc n v
  | .text s => w.text s
  | .textEsc s => w.textEsc s
  | .elemText n s => w.elemText n s
  | .elemTextEsc n s => w.elemTextEsc n s
  | .endElem n => w.endElem n
  | .endElemIf b n => w.endElemIf b n

/-- A writer after some calls: `XmlWriter::new(..).line_break(lb)`, src/io/xmlwriter.rs:95-110,
and the calls. -/
def runCalls (lb : Bool) (calls : List Call) : Writer :=
  calls.foldl Call.run { lineBreak := lb }

/-- What is in the file after some calls and `close`. -/
def output (lb : Bool) (calls : List Call) : Str := (runCalls lb calls).close

end Verif.Xml

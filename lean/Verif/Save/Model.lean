import Verif.Base

/-!
# Saving to a file or a buffer (src/io/write.rs:60-165, 345-415)

What goes through the file is a list of writes and seeks: those of `zip::ZipWriter` for an ods file, and those of
`XmlWriter` for a flat file.  The theorems hold for every such list, so `zip` itself is not modelled.

The operating system is an adversary: `Sched` says for each call whether it is refused, or how many bytes are
taken.  `BufWriter` is that of the standard library (library/std/src/io/buffered/bufwriter.rs), which is not part
of the repository: its behaviour is written down here and is an assumption.  Simplifications: a write that is
interrupted is retried by the standard library, and does not occur here.  `File::flush` does nothing.
-/

set_option autoImplicit false

namespace Verif.Save

/-- The content of a file. -/
abbrev Bytes := List UInt8

/-- What a writer is asked to do. -/
inductive WOp where
  /-- `write_all` -/
  | write (b : Bytes)
  /-- `seek(SeekFrom::Start(pos))` -/
  | seek (pos : Nat)
  deriving DecidableEq

/-- One byte at a position; a gap before it is filled with zeros. -/
def put : Bytes → Nat → UInt8 → Bytes
  | [], 0, x => [x]
  | [], p + 1, x => 0 :: put [] p x
  | _ :: c, 0, x => x :: c
  | y :: c, p + 1, x => y :: put c p x

/-- Some bytes at a position. -/
def overwrite : Bytes → Nat → Bytes → Bytes
  | c, _, [] => c
  | c, p, x :: b => overwrite (put c p x) (p + 1) b

/-! ### The operating system -/

/-- The answer of the operating system to a call. -/
inductive Resp where
  /-- it takes up to this many bytes -/
  | accept (n : Nat)
  /-- it refuses: the disk is full, or broken -/
  | refuse
  deriving DecidableEq

/-- The answers to all calls. -/
abbrev Sched := Nat → Resp

/-- `std::fs::File`: the content, the position, and the number of calls so far. -/
structure File where
  content : Bytes := []
  pos : Nat := 0
  calls : Nat := 0

/-- `File::write`: the number of bytes taken; `none` is an error. Taking 0 bytes of a text that is not empty counts
as an error (`ErrorKind::WriteZero` of `write_all` and of `flush_buf`). -/
def File.write (sched : Sched) (f : File) (b : Bytes) : Option Nat × File :=
  match sched f.calls with
  | .refuse => (none, { f with calls := f.calls + 1 })
  | .accept n =>
    if min n b.length = 0 then (none, { f with calls := f.calls + 1 })
    else (some (min n b.length),
      { content := overwrite f.content f.pos (b.take n), pos := f.pos + min n b.length
        calls := f.calls + 1 })

/-- `File::seek`; it can be refused as well. -/
def File.seek (sched : Sched) (f : File) (p : Nat) : Bool × File :=
  match sched f.calls with
  | .refuse => (false, { f with calls := f.calls + 1 })
  | .accept _ => (true, { f with pos := p, calls := f.calls + 1 })

/-- The loop of `write_all` and of `BufWriter::flush_buf`: is everything written, the file, and the bytes that
are not written. The first argument bounds the number of rounds; each one writes a byte. -/
def writeLoop (sched : Sched) : Nat → File → Bytes → Bool × File × Bytes
  | _, f, [] => (true, f, [])
  | 0, f, b => (false, f, b)
  | k + 1, f, x :: b =>
    match f.write sched (x :: b) with
    | (none, f) => (false, f, x :: b)
    | (some n, f) => writeLoop sched k f ((x :: b).drop n)

/-! ### `BufWriter` -/

/-- `BufWriter<File>`. -/
structure Buffered where
  file : File := {}
  buf : Bytes := []

/-- `BufWriter::flush_buf`: what is written is removed from the buffer, also after an error. -/
def Buffered.flush (sched : Sched) (w : Buffered) : Bool × Buffered :=
  let r := writeLoop sched w.buf.length w.file w.buf
  (r.1, { file := r.2.1, buf := r.2.2 })

/-- `BufWriter::write_all` with `write_all_cold`; `cap` is the capacity of the buffer. -/
def Buffered.write (sched : Sched) (cap : Nat) (w : Buffered) (b : Bytes) : Bool × Buffered :=
  if b.length < cap - w.buf.length then (true, { w with buf := w.buf ++ b })
  else
    let r := if cap - w.buf.length < b.length then w.flush sched else (true, w)
    if r.1 then
      if cap ≤ b.length then
        let s := writeLoop sched b.length r.2.file b
        (s.1, { r.2 with file := s.2.1 })
      else (true, { r.2 with buf := r.2.buf ++ b })
    else (false, r.2)

/-- `BufWriter::seek`: the buffer is flushed first. -/
def Buffered.seek (sched : Sched) (w : Buffered) (p : Nat) : Bool × Buffered :=
  let r := w.flush sched
  if r.1 then
    let s := r.2.file.seek sched p
    (s.1, { r.2 with file := s.2 })
  else (false, r.2)

/-- One operation. -/
def Buffered.step (sched : Sched) (cap : Nat) (w : Buffered) : WOp → Bool × Buffered
  | .write b => w.write sched cap b
  | .seek p => w.seek sched p

/-- Some operations, up to the first error. -/
def Buffered.run (sched : Sched) (cap : Nat) (w : Buffered) : List WOp → Bool × Buffered
  | [] => (true, w)
  | o :: os =>
    let r := w.step sched cap o
    if r.1 then Buffered.run sched cap r.2 os else (false, r.2)

/-- `Drop for BufWriter`: it is flushed; an error is ignored. -/
def Buffered.dropped (sched : Sched) (w : Buffered) : File := (w.flush sched).2.file

/-! ### Saving -/

/-- A workbook, as far as saving is concerned. -/
structure Job where
  /-- the number of sheets -/
  sheets : Nat
  /-- what is written and sought, up to the end or up to the error -/
  ops : List WOp
  /-- does writing end with an error of its own (e.g. overlapping cells)? -/
  fails : Bool
  /-- what `ZipWriter` does when it is dropped after an error: it tries to finish the archive -/
  dropOps : List WOp

/-- `write_ods_impl` and `write_fods_impl`, src/io/write.rs:152-163, 345-407, with `sanity_checks`, 409-414:
is it a success, and the state of the writer. -/
def Job.write (j : Job) (sched : Sched) (cap : Nat) (w : Buffered) : Bool × Buffered :=
  if j.sheets = 0 then (false, (w.run sched cap j.dropOps).2)
  else
    let r := w.run sched cap j.ops
    if r.1 && !j.fails then (true, r.2) else (false, (r.2.run sched cap j.dropOps).2)

/-- The files of a file system. -/
abbrev FS := Str → Option Bytes

/-- A file with a new content. -/
def FS.set (fs : FS) (p : Str) (c : Bytes) : FS := fun q => if q = p then some c else fs q

/-- The capacity of a `BufWriter`: `DEFAULT_BUF_SIZE`. -/
def bufSize : Nat := 8192

/-- `write_ods`, src/io/write.rs:112-122: `File::create` empties an existing file, or fails (`created`). The
`BufWriter` is dropped at the end. -/
def writeOds (sched : Sched) (created : Bool) (fs : FS) (path : Str) (j : Job) : Bool × FS :=
  if created then
    let r := j.write sched bufSize {}
    if r.1 then
      let f := r.2.flush sched
      (f.1, fs.set path (f.2.dropped sched).content)
    else (false, fs.set path (r.2.dropped sched).content)
  else (false, fs)

/-- `write_fods`, src/io/write.rs:142-149: like `write_ods`, without the `flush`. -/
def writeFods (sched : Sched) (created : Bool) (fs : FS) (path : Str) (j : Job) : Bool × FS :=
  if created then
    let r := j.write sched bufSize {}
    (r.1, fs.set path (r.2.dropped sched).content)
  else (false, fs)

/-! ### Buffers -/

/-- `Cursor<Vec<u8>>`. -/
structure Cursor where
  buf : Bytes
  pos : Nat := 0

/-- Writing to a `Cursor<Vec<u8>>` and seeking in it never fail. -/
def Cursor.step (c : Cursor) : WOp → Cursor
  | .write b => { buf := overwrite c.buf c.pos b, pos := c.pos + b.length }
  | .seek p => { c with pos := p }

/-- Some operations. -/
def Cursor.run (c : Cursor) (ops : List WOp) : Cursor := ops.foldl Cursor.step c

/-- `write_ods_buf` and `write_ods_buf_uncompressed`, src/io/write.rs:80-101; `none` is an error. -/
def writeOdsBuf (j : Job) (buf : Bytes) : Option Bytes :=
  if j.sheets = 0 then none
  else if j.fails then none
  else some (Cursor.run { buf := buf } j.ops).buf

/-- `Write for Vec<u8>`: all bytes go to the end. (A flat file is written without seeking.) -/
def pushAll (buf : Bytes) : List WOp → Bytes
  | [] => buf
  | .write b :: os => pushAll (buf ++ b) os
  | .seek _ :: os => pushAll buf os

/-- `write_fods_buf`, src/io/write.rs:125-131; `none` is an error. -/
def writeFodsBuf (j : Job) (buf : Bytes) : Option Bytes :=
  if j.sheets = 0 then none
  else if j.fails then none
  else some (pushAll buf j.ops)

end Verif.Save

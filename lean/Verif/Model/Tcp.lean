import Verif.Model.Message
import Verif.Model.Merkle
/-!
# Model of `common/pkg/fcrp2pserver/tcp_comms.go`: messages over a TCP connection

The receiving side of a connection is the list of what successive reads of the socket meet: a non-empty chunk of bytes, or the
deadline passing; the end of the list is the peer closing.  How the bytes are cut into chunks is up to the network.
-/

namespace FcRetrieval.Tcp
open FcRetrieval.Message (Msg)

/-- What a read of the socket meets next. -/
inductive Ev where
  | data (x : UInt8) (xs : Bytes)
  | timeout
  deriving DecidableEq

/-- Result of a read. -/
inductive Got where
  | bytes (b : Bytes)
  | eof
  | timeout
  deriving DecidableEq

/-- What is left of a chunk stays in the socket. -/
def pushBack (b : Bytes) (evs : List Ev) : List Ev :=
  match b with
  | [] => evs
  | x :: xs => .data x xs :: evs

/-- `conn.Read` into `n > 0` bytes. -/
def connRead (n : Nat) : List Ev → Got × List Ev
  | [] => (.eof, [])
  | .timeout :: r => (.timeout, r)
  | .data x xs :: r => (.bytes ((x :: xs).take n), pushBack ((x :: xs).drop n) r)

/-- `bufio.Reader`: bytes read from the socket and not yet handed out. -/
structure Reader where
  buf : Bytes
  conn : List Ev
  deriving DecidableEq

/-- Go's `bufio` default buffer size. -/
def bufSize : Nat := 4096

/-- `bufio.Reader.Read` into `n > 0` bytes: what is buffered, else a direct read if `n` is at least the buffer size, else one read
into the buffer. -/
def bufRead (n : Nat) (r : Reader) : Got × Reader :=
  match r.buf with
  | [] =>
    if bufSize ≤ n then
      let (g, c) := connRead n r.conn
      (g, ⟨[], c⟩)
    else
      match connRead bufSize r.conn with
      | (.bytes b, c) => (.bytes (b.take n), ⟨b.drop n, c⟩)
      | (g, c) => (g, ⟨[], c⟩)
  | x :: xs => (.bytes ((x :: xs).take n), ⟨(x :: xs).drop n, r.conn⟩)

/-- `io.ReadFull`: read until `k` more bytes are there; `acc` is what was read; the first argument bounds the number of rounds
(every round reads a byte or ends). -/
def readFull : Nat → Nat → Bytes → Reader → Got × Reader
  | 0, _, acc, r => (.bytes acc, r)
  | fuel + 1, k, acc, r =>
    if k = 0 then (.bytes acc, r)
    else
      match bufRead k r with
      | (.bytes b, r') => readFull fuel (k - b.length) (acc ++ b) r'
      | (g, r') => (g, r')

/-- Result of reading a message. -/
inductive Out where
  | msg (m : Msg)
  | bad
  | eof
  | timeout
  | crash
  deriving DecidableEq

/-- tcp_comms.go:35-59 `readTCPMessage`: the outcome and the socket afterwards.  The buffered reader is made anew on every call and
dropped at its end, with whatever it has buffered. -/
def readMsg (conn : List Ev) : Out × List Ev :=
  match readFull 4 4 [] ⟨[], conn⟩ with
  | (.eof, r) => (.eof, r.conn)
  | (.timeout, r) => (.timeout, r.conn)
  | (.bytes l, r) =>
    let n := Merkle.u32 l
    match readFull n n [] r with
    | (.eof, r) => (.eof, r.conn)
    | (.timeout, r) => (.timeout, r.conn)
    | (.bytes d, r) =>
      match Message.fromBytes d with
      | .ok m => (.msg m, r.conn)
      | .err => (.bad, r.conn)
      | .panic => (.crash, r.conn)

/-- tcp_comms.go:62-85 `sendTCPMessage`: the bytes written (`PutUint32` keeps the low 32 bits of the length). -/
def frame (m : Msg) : Bytes := be32 (Message.toBytes m).length ++ Message.toBytes m

/-- `n` calls of `readTCPMessage` on one connection. -/
def readN : Nat → List Ev → List Out
  | 0, _ => []
  | n + 1, conn => (readMsg conn).1 :: readN n (readMsg conn).2

end FcRetrieval.Tcp

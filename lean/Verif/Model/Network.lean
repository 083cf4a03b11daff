import Verif.Basic
import Verif.Model.Text

/-!
# Answers from the network (`plugins/media/media.c:2248-2303`)

`Network send:to:` with `libcurl`, which hands over the answer in pieces.
-/

namespace Verif.Model.Network
open Verif Verif.Model

/-- The contents of a new block for `n` bytes, `ctr_heap_allocate` with `ctr_pool_bucket`, `memory.c:49-71, 353-390`, in which
eight bytes hold the width. `e` is `none` if the block comes from the system (no pool, the usual mode, or no pods left) and
holds zeros, else the contents of the pod that is taken: zeros or, in a new pool, anything. -/
def block (e : Option Text) (n : Nat) : Text :=
  match e with
  | none => List.replicate (if n = 24 ∨ n = 56 ∨ n = 120 then n + 1 else n) 0
  | some junk =>
    if n ≤ 24 then (junk ++ List.replicate 24 0).take 24
    else if n ≤ 56 then (junk ++ List.replicate 56 0).take 56
    else if n ≤ 120 then (junk ++ List.replicate 120 0).take 120
    else List.replicate n 0

/-- `ctr_heap_reallocate`, `memory.c:196-239`: a block that is large enough stays, else its contents are copied. -/
def realloc (e : Option Text) (mem : Text) (n : Nat) : Text :=
  if (block e n).length ≤ mem.length then mem else mem ++ (block e n).drop mem.length

/-- `CtrMediaCurlBuffer`, `CtrMediaCurlBufferSize` and `CtrMediaCurlBytesRead`, `media.c:2248-2250`. -/
structure St where
  mem : Text
  size : Nat
  read : Nat
  deriving DecidableEq, Repr

/-- The part of `ctr_curl_write_callback` that enlarges the buffer, `media.c:2252-2257`. -/
def enlarge (e : Option Text) (s : St) (required : Nat) : St :=
  if required > s.size then ⟨realloc e s.mem required, required, s.read⟩ else s

/-- `ctr_curl_write_callback`, `media.c:2251-2261`, for the piece `d`. -/
def callback (e : Option Text) (s : St) (d : Text) : Out St :=
  let s := enlarge e s (d.length + s.read)
  if s.mem.length < s.read + d.length then .ub
  else .ok ⟨s.mem.take s.read ++ d ++ s.mem.drop (s.read + d.length), s.size, s.read + d.length⟩

/-- `curl_easy_perform`: the pieces of the answer, one after the other; `env j` is where the block of request `j` comes from. -/
def receive (env : Nat → Option Text) : Nat → St → List Text → Out St
  | _, s, [] => .ok s
  | j, s, d :: ds => (callback (env j) s d).bind fun s => receive env (j + 1) s ds

/-- `strlen` and the copy in `ctr_build_string_from_cstring`, `base.c:1635-1637`; reading behind the block is `ub`. -/
def cstr : Text → Out Text
  | [] => .ub
  | c :: t => if c = 0 then .ok [] else (cstr t).bind fun r => .ok (c :: r)

/-- `ctr_network_basic_text_send`, `media.c:2263-2303`: the text that is answered when the transfer succeeds. What is sent and
the transfer are left to `libcurl`. -/
def send (env : Nat → Option Text) (chunks : List Text) : Out Text :=
  (receive env 1 ⟨block (env 0) 10, 10, 0⟩ chunks).bind fun s => cstr s.mem

end Verif.Model.Network

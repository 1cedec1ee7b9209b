import Verif.Model.Text
/-
  win.rs: the wrapper around the Windows SSPI (compiled on Windows only).  The operating system calls are
  environment input; memory that Rust considers uninitialised is modelled by absence, and using it is the outcome
  `undefined`.
-/
namespace Ntlm.Win

/-- The `SECURITY_STATUS` codes the wrapper compares with (win.rs:10); values from the Windows headers. -/
def SEC_I_CONTINUE_NEEDED : UInt32 := 0x00090312
/-- win.rs:10 -/
def SEC_I_COMPLETE_NEEDED : UInt32 := 0x00090313
/-- win.rs:10 -/
def SEC_I_COMPLETE_AND_CONTINUE : UInt32 := 0x00090314

/-- win.rs:65-66: `ISC_REQ_CONNECTION | ISC_REQ_INTEGRITY | ISC_REQ_STREAM`; values from the Windows headers. -/
def REQUEST_FLAGS : UInt32 := 0x00000800 ||| 0x00010000 ||| 0x00008000

/-- win.rs:24 `MAX_MESSAGE_SIZE`, the capacity asked for the output buffer. -/
def MAX_MESSAGE_SIZE : Nat := 12000

/-- win.rs:26-32; handles are opaque numbers, `lifetime` is write-only and omitted.  `capacity` is the size of the
    allocation behind `output_buffer`, which never changes (`clear` and `set_len` do not reallocate); `memory` is the
    initialised prefix of that allocation, which `clear` does not erase. -/
structure WinClient where
  credentials : Nat
  context : Option Nat
  target : List UInt8
  outputBuffer : List UInt8
  capacity : Nat
  memory : List UInt8
  deriving DecidableEq, Repr

/-- What the operating system answers to one `InitializeSecurityContextA` call (win.rs:98-135) and to the
    `CompleteAuthToken` call that may follow (win.rs:143): the status, the context handle if it writes one, the bytes it
    puts at the start of the output buffer, the size it stores in `cbBuffer`, and whether `CompleteAuthToken`
    succeeds. -/
structure Reply where
  ret : UInt32
  handle : Option Nat
  output : List UInt8
  cbBuffer : UInt32
  completeOk : Bool
  deriving DecidableEq, Repr

/-- What the wrapper passed to the operating system (win.rs:98-131, :141-144): the credentials, the context handle, the target
    name, the request flags, the length of the input token (`buffer.len() as u32`, win.rs:78) or `none` without input (the pointer
    is that of the token itself), the size of the output buffer, and the context handle given to `CompleteAuthToken`, `none` if
    that was not called. -/
structure Calls where
  credentials : Nat
  context : Option Nat
  target : List UInt8
  flags : UInt32
  inputLen : Option UInt32
  outputLen : Nat
  completed : Option Nat
  deriving DecidableEq, Repr

/-- win.rs:37-63 `new`: a target with an interior NUL is refused (`CString::new`), then the credentials call may fail.
    `capacity`, at least the one asked for, is the allocator's choice. -/
def WinClient.new (target : Str) (creds : Option Nat) (capacity : Nat) : Option WinClient :=
  if (utf8 target).contains 0 then none
  else creds.map fun h =>
    { credentials := h, context := none, target := utf8 target, outputBuffer := [],
      capacity := capacity, memory := [] }

/-- Result of `initialize_security_context`: `Ok(done)`, an error, a panic, or undefined behaviour. -/
inductive Init where
  | done (b : Bool)
  | err
  | panic
  | undefined
  deriving DecidableEq, Repr

/-- win.rs:65-147 `initialize_security_context`: new client, calls made (none if it panics first), and the result.
    With an existing context the handle is updated in place by the OS (`phNewContext = phContext`); without, the
    handle read back is undefined if the OS has not written one (win.rs:133, `assume_init`).  The new length of the buffer
    is what the OS has stored in `cbBuffer` (win.rs:136-139), undefined beyond the initialised memory. -/
def initializeSecurityContext (input : Option (List UInt8)) (r : Reply) (c : WinClient) :
    WinClient × Option Calls × Init :=
  let c := { c with outputBuffer := [] }
  if c.capacity ≥ 2 ^ 32 then (c, none, .panic) else
  let needComplete := r.ret == SEC_I_COMPLETE_NEEDED || r.ret == SEC_I_COMPLETE_AND_CONTINUE
  let calls : Calls :=
    { credentials := c.credentials
      context := c.context
      target := c.target
      flags := REQUEST_FLAGS
      inputLen := input.map fun b => UInt32.ofNat b.length
      outputLen := c.capacity
      completed := none }
  let context := match r.handle with
    | some h => some h
    | none => c.context
  let c := { c with context := context, memory := r.output ++ c.memory.drop r.output.length }
  if context.isNone || r.cbBuffer.toNat > c.memory.length || r.cbBuffer.toNat > c.capacity then
    (c, some calls, .undefined)
  else
    let calls := { calls with completed := if needComplete then context else none }
    let c := { c with outputBuffer := c.memory.take r.cbBuffer.toNat }
    if needComplete && !r.completeOk then (c, some calls, .err)
    else (c, some calls, .done (!(r.ret == SEC_I_CONTINUE_NEEDED || r.ret == SEC_I_COMPLETE_AND_CONTINUE)))

/-- Result of the public methods: bytes, an error, a panic, or undefined behaviour. -/
inductive Outcome where
  | bytes (b : List UInt8)
  | err
  | panic
  | undefined
  deriving DecidableEq, Repr

/-- A call of a public method, with the operating system's answer. -/
inductive Op where
  /-- `negotiate()` -/
  | negotiate (r : Reply)
  /-- `challenge(message)` -/
  | challenge (message : List UInt8) (r : Reply)
  deriving DecidableEq, Repr

/-- win.rs:149-154 `negotiate`. -/
def negotiate (cfg : Cfg) (r : Reply) (c : WinClient) : WinClient × Option Calls × Outcome :=
  match initializeSecurityContext none r c with
  | (c, calls, .err) => (c, calls, .err)
  | (c, calls, .panic) => (c, calls, .panic)
  | (c, calls, .undefined) => (c, calls, .undefined)
  | (c, calls, .done d) => if cfg.debug && d then (c, calls, .panic) else (c, calls, .bytes c.outputBuffer)

/-- win.rs:156-160 `challenge`. -/
def challenge (cfg : Cfg) (message : List UInt8) (r : Reply) (c : WinClient) : WinClient × Option Calls × Outcome :=
  match initializeSecurityContext (some message) r c with
  | (c, calls, .err) => (c, calls, .err)
  | (c, calls, .panic) => (c, calls, .panic)
  | (c, calls, .undefined) => (c, calls, .undefined)
  | (c, calls, .done d) => if cfg.debug && !d then (c, calls, .panic) else (c, calls, .bytes c.outputBuffer)

/-- One call of a public method. -/
def step (cfg : Cfg) (c : WinClient) : Op → WinClient × Option Calls × Outcome
  | .negotiate r => negotiate cfg r c
  | .challenge m r => challenge cfg m r c

/-- A sequence of calls (a panic may be caught by the caller, who can go on). -/
def run (cfg : Cfg) (c : WinClient) (ops : List Op) : WinClient :=
  ops.foldl (fun c op => (step cfg c op).1) c

end Ntlm.Win

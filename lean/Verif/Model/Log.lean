import Verif.Model.Messages
/-
  The decoders together with what they log (`log::warn!`).  `Model/Messages.lean` leaves the log out, which
  has no effect on results.
-/
namespace Ntlm

namespace Log

/-- A warning, with the message's variable parts. -/
inductive Warn where
  /-- messages/flags.rs:211, :216, .., :256 -/
  | reserved (k : Nat)
  /-- messages/flags.rs:263-265 -/
  | targetTypes
  /-- messages/flags.rs:271-273 -/
  | noCharset
  /-- messages/flags.rs:281 -/
  | lmKey
  /-- messages/field.rs:70, :102 -/
  | empty (typename : String)
  /-- messages/field.rs:77-81, :108-112 -/
  | notConsumed (typename : String) (rest : Nat)
  /-- messages/authenticate.rs:66 -/
  | noKey
  deriving DecidableEq, Repr

/-- The text of a warning (the format strings at the lines above). -/
def Warn.text : Warn → String
  | .reserved k => "flags.has_flag(R" ++ toString k ++ ")"
  | .targetTypes => "flags cannot have NTLMSSP_TARGET_TYPE_DOMAIN and NTLMSSP_TARGET_TYPE_SERVER"
  | .noCharset => "!flags.has_flag(NTLMSSP_NEGOTIATE_UNICODE) && !flags.has_flag(NTLM_NEGOTIATE_OEM)"
  | .lmKey => "flags.has_flag(NTLMSSP_NEGOTIATE_EXTENDED_SESSIONSECURITY) && flags.has_flag(NTLMSSP_NEGOTIATE_LM_KEY)"
  | .empty t => "Flag for " ++ t ++ " is set but field is empty"
  | .notConsumed t n => "Not all is consumed for " ++ t ++ ". " ++ toString n ++ " bytes remaning"
  | .noKey => "Cannot compute MIC as there is no `exported_session_key`."

/-- A computation that may fail, with the warnings it has logged. -/
def L (α : Type) := Except PErr α × List Warn

instance : Monad L where
  pure a := (.ok a, [])
  bind x f := match x with
    | (.ok a, l) => ((f a).1, l ++ (f a).2)
    | (.error e, l) => (.error e, l)

/-- A computation that logs nothing. -/
def quiet {α : Type} (x : Except PErr α) : L α := (x, [])

/-- `log::warn!`. -/
def warn (w : Warn) : L Unit := (.ok (), [w])

/-- messages/flags.rs:207-286 `validate`, with its log, as a function of the value of its `cfg` conditions.  The
    checks in order; a violated one is logged, and with the `cfg` condition ends the function. -/
def validateWith (strict : Bool) (flags : UInt32) : Bool × List Warn :=
  let f : Flags := ⟨flags⟩
  go strict [
    (f.hasFlag Flags.R1, .reserved 1), (f.hasFlag Flags.R2, .reserved 2), (f.hasFlag Flags.R3, .reserved 3),
    (f.hasFlag Flags.R4, .reserved 4), (f.hasFlag Flags.R5, .reserved 5), (f.hasFlag Flags.R6, .reserved 6),
    (f.hasFlag Flags.R7, .reserved 7), (f.hasFlag Flags.R8, .reserved 8), (f.hasFlag Flags.R9, .reserved 9),
    (f.hasFlag Flags.R10, .reserved 10),
    (f.hasFlag Flags.NTLMSSP_TARGET_TYPE_DOMAIN && f.hasFlag Flags.NTLMSSP_TARGET_TYPE_SERVER, .targetTypes),
    (!f.hasFlag Flags.NTLMSSP_NEGOTIATE_UNICODE && !f.hasFlag Flags.NTLM_NEGOTIATE_OEM, .noCharset),
    (f.hasFlag Flags.NTLMSSP_NEGOTIATE_EXTENDED_SESSIONSECURITY && f.hasFlag Flags.NTLMSSP_NEGOTIATE_LM_KEY,
      .lmKey)]
where
  /-- One `if cond { log::warn!(..); #[cfg(..)] return false; }` after the other. -/
  go (strict : Bool) : List (Bool × Warn) → Bool × List Warn
    | [] => (true, [])
    | (violated, w) :: rest =>
      if violated then
        if strict then (false, [w])
        else ((go strict rest).1, w :: (go strict rest).2)
      else go strict rest

/-- messages/flags.rs:183-188 `Flags::deserialize`. -/
def flags (cfg : Cfg) (input : List UInt8) : L (Flags × List UInt8) :=
  match leU32 input with
  | .error e => quiet (.error e)
  | .ok (f, rest) =>
    let (ok, ws) := validateWith (Flags.cfgFeaturesStrict cfg) f
    (if ok then .ok (⟨f⟩, rest) else .error .error, ws)

/-- messages/field.rs:58-88 `get_data_if`. -/
def getDataIf {α : Type} [Wire α] (cfg : Cfg) (f : Field) (typename : String) (input : List UInt8) (cond : Bool) :
    L (Option α) :=
  if cond then
    if f.len = 0 then do
      warn (.empty typename)
      return none
    else do
      let data ← quiet (f.slice input)
      let (value, rest) ← quiet ((Wire.deserialize cfg : Parser α) data)
      if !rest.isEmpty then warn (.notConsumed typename rest.length)
      return some value
  else return none

/-- messages/field.rs:90-119 `get_many_if`. -/
def getManyIf {α : Type} [Wire α] (cfg : Cfg) (f : Field) (typename : String) (input : List UInt8) (cond : Bool) :
    L (List α) :=
  if cond then
    if f.len = 0 then do
      warn (.empty typename)
      return []
    else do
      let data ← quiet (f.slice input)
      let (value, rest) ← quiet (many0 (Wire.deserialize cfg : Parser α) data)
      if !rest.isEmpty then warn (.notConsumed typename rest.length)
      return value
  else return []

/-- messages/negotiate.rs:89-130 `deserialize`. -/
def negotiate (cfg : Cfg) (input : List UInt8) : L (Negotiate × List UInt8) := do
  let (_, rest) ← quiet (tag signature input)
  let (_, rest) ← quiet (verify leU32 (fun mt => mt == 0x00000001) rest)
  let (negotiateFlags, rest) ← flags cfg rest
  let (domainNameField, rest) ← quiet ((Wire.deserialize cfg : Parser Field) rest)
  let (workstationField, rest) ← quiet ((Wire.deserialize cfg : Parser Field) rest)
  let (version, _) ← quiet (cond (negotiateFlags.hasFlag Flags.NTLMSSP_NEGOTIATE_VERSION)
    (Wire.deserialize cfg : Parser Version) rest)
  let domainName ← getDataIf cfg domainNameField "domain" input
    (negotiateFlags.hasFlag Flags.NTLMSSP_NEGOTIATE_OEM_DOMAIN_SUPPLIED || true)
  let workstation ← getDataIf cfg workstationField "workstation" input
    (negotiateFlags.hasFlag Flags.NTLMSSP_NEGOTIATE_OEM_WORKSTATION_SUPPLIED || true)
  return ({ negotiateFlags, domainName, workstation, version }, [])

/-- messages/challenge.rs:156-213 `deserialize`. -/
def challenge (cfg : Cfg) (input : List UInt8) : L (Challenge × List UInt8) := do
  let (_, rest) ← quiet (tag signature input)
  let (_, rest) ← quiet (verify leU32 (fun mt => mt == 0x00000002) rest)
  let (targetNameField, rest) ← quiet ((Wire.deserialize cfg : Parser Field) rest)
  let (negotiateFlags, rest) ← flags cfg rest
  let (serverChallenge, rest) ← quiet ((Wire.deserialize cfg : Parser (Bytes 8)) rest)
  let (_, rest) ← quiet (Challenge.parseReserved cfg rest)
  let (targetInfosField, rest) ← quiet ((Wire.deserialize cfg : Parser Field) rest)
  let (version, _) ← quiet (cond (negotiateFlags.hasFlag Flags.NTLMSSP_NEGOTIATE_VERSION)
    (Wire.deserialize cfg : Parser Version) rest)
  let targetName ← getDataIf cfg targetNameField "target_name" input
    (negotiateFlags.hasFlag Flags.NTLMSSP_REQUEST_TARGET || true)
  let targetInfos ← getManyIf cfg targetInfosField "target_infos" input true
  if Challenge.lastIsEol targetInfos then
    return ({ targetName, negotiateFlags, serverChallenge, targetInfos, version }, [])
  else quiet (.error .error)

/-- `result.ok().flatten()` (messages/authenticate.rs:148-149, :154-155): what was logged stays logged. -/
def okFlatten {α : Type} (r : L (Option α)) : L (Option α) := (Authenticate.okFlatten r.1, r.2)

/-- messages/authenticate.rs:145-157. -/
def lmResponse (cfg : Cfg) (flags : Flags) (lm : Field) (input : List UInt8) : L (Option LmChallenge) :=
  if flags.hasFlag Flags.NTLMSSP_NEGOTIATE_NTLM then do
    let c ← okFlatten (getDataIf cfg lm "lmv1_challenge_response" input true : L (Option Lmv1Challenge))
    return c.map .v1
  else do
    let c ← okFlatten (getDataIf cfg lm "lmv2_challenge_response" input true : L (Option Lmv2Challenge))
    return c.map .v2

/-- messages/authenticate.rs:109-184 `deserialize`. -/
def authenticate (cfg : Cfg) (input : List UInt8) : L (Authenticate × List UInt8) := do
  let (_, rest) ← quiet (tag signature input)
  let (_, rest) ← quiet (verify leU32 (fun mt => mt == 0x00000003) rest)
  let (lmField, rest) ← quiet ((Wire.deserialize cfg : Parser Field) rest)
  let (ntField, rest) ← quiet ((Wire.deserialize cfg : Parser Field) rest)
  let (domainField, rest) ← quiet ((Wire.deserialize cfg : Parser Field) rest)
  let (userField, rest) ← quiet ((Wire.deserialize cfg : Parser Field) rest)
  let (workstationField, rest) ← quiet ((Wire.deserialize cfg : Parser Field) rest)
  let (keyField, rest) ← quiet ((Wire.deserialize cfg : Parser Field) rest)
  let (negotiateFlags, rest) ← flags cfg rest
  let (version, rest) ← quiet (cond (negotiateFlags.hasFlag Flags.NTLMSSP_NEGOTIATE_VERSION)
    (Wire.deserialize cfg : Parser Version) rest)
  let (mic, _) ← quiet ((Wire.deserialize cfg : Parser (Bytes 16)) rest)
  let lmChallengeResponse ← lmResponse cfg negotiateFlags lmField input
  let ntChallengeResponse ← getDataIf cfg ntField "nt_challenge_response" input true
  let domain ← getDataIf cfg domainField "domain" input true
  let user ← getDataIf cfg userField "user" input true
  let workstation ← getDataIf cfg workstationField "workstation" input true
  let encryptedRandomSessionKey ← getDataIf cfg keyField "encrypted_random_session_key" input
    (negotiateFlags.hasFlag Flags.NTLMSSP_NEGOTIATE_KEY_EXCH)
  return ({ lmChallengeResponse, ntChallengeResponse, domain, user, workstation, encryptedRandomSessionKey,
            negotiateFlags, version, mic, exportedSessionKey := none }, [])

/-- messages/authenticate.rs:57-68 `compute_mic`: logs only without a session key. -/
def computeMic (P : Prims) (cfg : Cfg) (m : Authenticate) (neg : Negotiate) (chal : Challenge) :
    Except Panic Authenticate × List Warn :=
  (m.computeMic P cfg neg chal, if m.exportedSessionKey.isSome then [] else [.noKey])

end Log

end Ntlm

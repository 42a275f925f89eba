import Verif.Proof.Auth
import Verif.Proof.Decide
/-! C33-C35, C54: authentication and capability messages. -/
namespace Verif.Props
open Verif.Go Verif.Spec Verif.Model Verif.Proof

theorem stream_one {m : ClientMsg} {s : Slice} (hs : s.data = codeFrame m) (hg : GoodMsg m) (hl : s.len < 2 ^ 32 + 4) :
    decodeStream s.data = some [m] := by
  have := decodeStream_frames (ms := [m]) (by
    intro x hx
    simp only [List.mem_singleton] at hx
    subst hx
    refine ⟨hg, ?_⟩
    rw [Slice.len, hs] at hl
    simp [codeFrame, frame, fixed4] at hl
    simp only [FitsFrame]; omega)
  rw [hs]
  simpa using this

/-- **C33.** Whatever the credentials, the challenge, the buffer and its stale content: `Continue` of MYSQL41 does not
panic, and its message is one AuthenticateContinue carrying database NUL user NUL token; without password the token is
empty, otherwise the server, which knows only the double hash, accepts it. -/
theorem C33_mysql41 (g : Grow) {sha1 : Bytes → Bytes} (hH : ∀ x, (sha1 x).length = 20) (buf : Slice) (c : Credentials) (ch : Bytes) :
    mysql41Continue g sha1 buf c ch ≠ .error .panic ∧
    ∀ s, mysql41Continue g sha1 buf c ch = .ok s → s.len < 2 ^ 32 + 4 →
      ∃ token, decodeStream s.data = some [.authContinue (c.database ++ [0] ++ c.userName ++ [0] ++ token)] ∧
        (c.password = [] → token = []) ∧
        (c.password ≠ [] → mysql41Accepts sha1 (sha1 (sha1 c.password)) ch token = true) := by
  rcases mysql41Continue_post g hH buf c ch with h | ⟨sp, h⟩
  · exact ⟨by rw [h]; simp, fun s hs => by rw [h] at hs; cases hs⟩
  · refine ⟨by rw [h]; simp, fun s hs hl => ?_⟩
    rw [h] at hs
    cases hs
    refine ⟨if c.password = [] then [] else 42 :: tokenOf sha1 (ch ++ ·) c.password, ?_, fun hp => by rw [if_pos hp], fun hp => ?_⟩
    · have := stream_one rfl (by simp [GoodMsg]) hl
      rw [this]
      simp [namesOf]
    · rw [if_neg hp]
      simp only [mysql41Accepts, tokenOf, unhex_hexOf]
      rw [xor_cancel _ _ (by rw [hH, hH])]
      simp [xorBytes, hH]

/-- **C33**, start: the first message names the mechanism and carries nothing else. -/
theorem C33_start (g : Grow) (buf : Slice) (c : Credentials) :
    mysql41Start g buf c ≠ .error .panic ∧
    ∀ s, mysql41Start g buf c = .ok s → s.len < 2 ^ 32 + 4 → decodeStream s.data = some [.authStart (ascii "MYSQL41") none] := by
  rcases authenticateStart_post g buf (ascii "MYSQL41") [] with h | ⟨sp, h⟩
  · exact ⟨by rw [mysql41Start, h]; simp, fun s hs => by rw [mysql41Start, h] at hs; cases hs⟩
  · refine ⟨by rw [mysql41Start, h]; simp, fun s hs hl => ?_⟩
    rw [mysql41Start, h] at hs
    cases hs
    exact stream_one rfl (by simp [GoodMsg]) hl

/-- **C33**, the password enters the messages only through its hash: passwords that `sha1` (any function at all) does not
tell apart lead to the same bytes. -/
theorem C33_password_hidden (g : Grow) {sha1 : Bytes → Bytes} (hH : ∀ x, (sha1 x).length = 20) (buf buf' : Slice)
    (db user pw pw' ch : Bytes) (h0 : pw ≠ []) (h0' : pw' ≠ []) (hpw : sha1 pw = sha1 pw') {s s' : Slice}
    (h : mysql41Continue g sha1 buf ⟨db, user, pw⟩ ch = .ok s) (h' : mysql41Continue g sha1 buf' ⟨db, user, pw'⟩ ch = .ok s') :
    s.data = s'.data := by
  rcases mysql41Continue_post g hH buf ⟨db, user, pw⟩ ch with e | ⟨sp, e⟩
  · rw [e] at h; cases h
  · rcases mysql41Continue_post g hH buf' ⟨db, user, pw'⟩ ch with e' | ⟨sp', e'⟩
    · rw [e'] at h'; cases h'
    · rw [e] at h
      rw [e'] at h'
      cases h; cases h'
      simp only [h0, h0', tokenOf, hpw, namesOf, if_false]

/-- A toy hash of 20 bytes. -/
def toySha1 (x : Bytes) : Bytes := (List.range 20).map fun i => UInt8.ofNat (x.foldl (fun a b => a * 7 + b.toNat + i) 3)

/-- The hypotheses of `C33_mysql41` are met: a buffer full of stale bytes, as `Authenticate` passes. -/
example : (mysql41Continue (fun _ _ => 0) toySha1 ⟨[], List.replicate 128 255⟩ ⟨ascii "db", ascii "root", ascii "secret"⟩ [1, 2, 3]).toOption.map
      (fun s => (s.len, (decodeStream s.data).isSome)) = some (56, true) := by decide +kernel

/-- **C34.** As C33 for SHA256_MEMORY, where the cache holds the double SHA256 hash. -/
theorem C34_sha256 (g : Grow) {sha256 : Bytes → Bytes} (hH : ∀ x, (sha256 x).length = 32) (buf : Slice) (c : Credentials) (ch : Bytes) :
    sha256Continue g sha256 buf c ch ≠ .error .panic ∧
    ∀ s, sha256Continue g sha256 buf c ch = .ok s → s.len < 2 ^ 32 + 4 →
      ∃ token, decodeStream s.data = some [.authContinue (c.database ++ [0] ++ c.userName ++ [0] ++ token)] ∧
        sha256Accepts sha256 (sha256 (sha256 c.password)) ch token = true := by
  rcases sha256Continue_post g hH buf c ch with h | ⟨sp, h⟩
  · exact ⟨by rw [h]; simp, fun s hs => by rw [h] at hs; cases hs⟩
  · refine ⟨by rw [h]; simp, fun s hs hl => ?_⟩
    rw [h] at hs
    cases hs
    refine ⟨tokenOf sha256 (· ++ ch) c.password, ?_, ?_⟩
    · have := stream_one rfl (by simp [GoodMsg]) hl
      rw [this]
      simp [namesOf]
    · simp only [sha256Accepts, tokenOf, unhex_hexOf]
      rw [xor_cancel _ _ (by rw [hH, hH])]
      simp [xorBytes, hH]

/-- **C34**, start. -/
theorem C34_start (g : Grow) (buf : Slice) (c : Credentials) :
    sha256Start g buf c ≠ .error .panic ∧
    ∀ s, sha256Start g buf c = .ok s → s.len < 2 ^ 32 + 4 → decodeStream s.data = some [.authStart (ascii "SHA256_MEMORY") none] := by
  rcases authenticateStart_post g buf (ascii "SHA256_MEMORY") [] with h | ⟨sp, h⟩
  · exact ⟨by rw [sha256Start, h]; simp, fun s hs => by rw [sha256Start, h] at hs; cases hs⟩
  · refine ⟨by rw [sha256Start, h]; simp, fun s hs hl => ?_⟩
    rw [sha256Start, h] at hs
    cases hs
    exact stream_one rfl (by simp [GoodMsg]) hl

/-- **C34**, the password enters only through its hash. -/
theorem C34_password_hidden (g : Grow) {sha256 : Bytes → Bytes} (hH : ∀ x, (sha256 x).length = 32) (buf buf' : Slice)
    (db user pw pw' ch : Bytes) (hpw : sha256 pw = sha256 pw') {s s' : Slice}
    (h : sha256Continue g sha256 buf ⟨db, user, pw⟩ ch = .ok s) (h' : sha256Continue g sha256 buf' ⟨db, user, pw'⟩ ch = .ok s') :
    s.data = s'.data := by
  rcases sha256Continue_post g hH buf ⟨db, user, pw⟩ ch with e | ⟨sp, e⟩
  · rw [e] at h; cases h
  · rcases sha256Continue_post g hH buf' ⟨db, user, pw'⟩ ch with e' | ⟨sp', e'⟩
    · rw [e'] at h'; cases h'
    · rw [e] at h
      rw [e'] at h'
      cases h; cases h'
      simp only [tokenOf, hpw, namesOf]

def toySha256 (x : Bytes) : Bytes := (List.range 32).map fun i => UInt8.ofNat (x.foldl (fun a b => a * 7 + b.toNat + i) 3)

example : (sha256Continue (fun _ _ => 0) toySha256 ⟨[], List.replicate 128 255⟩ ⟨ascii "db", ascii "root", ascii "secret"⟩ [1, 2, 3]).toOption.map
      (fun s => (s.len, (decodeStream s.data).isSome)) = some (79, true) := by decide +kernel

/-- **C35.** `Start` of PLAIN does not panic, and its message is one AuthenticateStart for PLAIN whose data the server
splits into exactly the database, the user and the password (which may contain anything, NUL included). -/
theorem C35_plain (g : Grow) (buf : Slice) (c : Credentials) :
    plainStart g buf c ≠ .error .panic ∧
    ∀ s, plainStart g buf c = .ok s → s.len < 2 ^ 32 + 4 → (0 : UInt8) ∉ c.database → (0 : UInt8) ∉ c.userName →
      ∃ data, decodeStream s.data = some [.authStart (ascii "PLAIN") (some data)] ∧
        parseAuthData data = some (c.database, c.userName, c.password) := by
  rcases plainStart_post g buf c with h | ⟨sp, h⟩
  · exact ⟨by rw [h]; simp, fun s hs => by rw [h] at hs; cases hs⟩
  · refine ⟨by rw [h]; simp, fun s hs hl h1 h2 => ?_⟩
    rw [h] at hs
    cases hs
    exact ⟨_, stream_one rfl (by simp [GoodMsg]) hl, parse_names h1 h2 _⟩

example : (plainStart (fun _ _ => 0) ⟨[], List.replicate 128 255⟩ ⟨ascii "db", ascii "root", [0, 1, 0]⟩).toOption.map
      (fun s => decodeStream s.data) = some (some [.authStart (ascii "PLAIN") (some (ascii "db" ++ [0] ++ ascii "root" ++ [0] ++ [0, 1, 0]))]) := by
  decide +kernel

/-- The restriction to names without NUL is needed: two different credentials, one message. -/
example : (plainStart (fun _ _ => 0) ⟨[], []⟩ ⟨[], [1, 0, 2], [3]⟩).toOption.map (·.data) =
    (plainStart (fun _ _ => 0) ⟨[], []⟩ ⟨[], [1], [2, 0, 3]⟩).toOption.map (·.data) := by decide +kernel

/-- **C33, C34**, parsing: with names without NUL the server finds database, user and token. -/
theorem C33_parsed {db user token : Bytes} (h1 : (0 : UInt8) ∉ db) (h2 : (0 : UInt8) ∉ user) :
    parseAuthData (db ++ [0] ++ user ++ [0] ++ token) = some (db, user, token) := by
  have := parse_names (c := ⟨db, user, []⟩) h1 h2 token
  simpa [namesOf] using this

/-- **C54.** `CapabilitySet(name, enable)` does not panic and yields one CapabilitiesSet message with exactly the one
capability. -/
theorem C54_capability (name : Bytes) (enable : Bool) :
    capabilitySet name enable ≠ .error .panic ∧
    ∀ b, capabilitySet name enable = .ok b → b.length < 2 ^ 32 + 4 →
      decodeStream b = some [.capabilitiesSet [(name, .bool enable)]] := by
  rcases capabilitySet_post name enable with h | h
  · exact ⟨by rw [h]; simp, fun s hs => by rw [h] at hs; cases hs⟩
  · refine ⟨by rw [h]; simp, fun b hb hl => ?_⟩
    rw [h] at hb
    cases hb
    exact stream_one (s := ⟨codeFrame (.capabilitiesSet [(name, .bool enable)]), []⟩) rfl (by simp [GoodMsg, ScalarOK]) hl

/-- The request of connector.go:68, byte by byte. -/
theorem capabilitySet_tls : capabilitySet (ascii "tls") true = .ok ([20, 0, 0, 0, 2] ++ [10, 17, 10, 15, 10, 3, 116, 108, 115, 18, 8, 8, 1, 18, 4, 8, 7, 64, 1]) := by
  have : (capabilitySet (ascii "tls") true).toOption = some ([20, 0, 0, 0, 2] ++ [10, 17, 10, 15, 10, 3, 116, 108, 115, 18, 8, 8, 1, 18, 4, 8, 7, 64, 1]) := by decide +kernel
  cases h : capabilitySet (ascii "tls") true with
  | error e => rw [h] at this; cases this
  | ok b => rw [h] at this; cases this; rfl

end Verif.Props

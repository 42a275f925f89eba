import Verif.Proof.Schema
import Verif.Props.Units
import Verif.Props.Auth
/-! C59: what is sent is valid under the .proto files of the X Protocol. -/
namespace Verif.Props
open Verif.Go Verif.Spec Verif.Spec.Schema Verif.Model Verif.Proof

/-- **C59.** A program that returns with no error has appended frames that a reader following nothing but the .proto
files accepts, and that say, under the names given there, what the calls ask for.  (Bounds as for C10.) -/
theorem C59_schema {g : Grow} {b b' : Builder} {prog : Prog} {o : List Builder} {out : List (Option Val)}
    (hb : Ready b) (h : run g prog [] b = .ok (o, b', out)) (he : b'.err = none) :
    ∃ ms vs, ∃ frs : List Bytes, Exec libDur 0 prog (.ok []) (.ok ms) out vs ∧
      b'.buf.data = b.buf.data ++ frs.flatten ∧
      ((∀ f ∈ frs, f.length < 2 ^ 32) → (∀ m ∈ ms, Readable m) → readStream frs.flatten = some (ms.map messageTree)) := by
  obtain ⟨ms, vs, frs, h1, h2, _, h3⟩ := C10_unit_frames hb h he
  exact ⟨ms, vs, frs, h1, h2, fun hf hr => stream_reads ((h3 hf).2 hr)⟩

/-- **C59**, for the messages of the authentication mechanisms. -/
theorem C59_start (g : Grow) (buf s : Slice) (c : Credentials) (hl : s.len < 2 ^ 32 + 4) :
    (mysql41Start g buf c = .ok s → readStream s.data = some
      [(.Session_AuthenticateStart, .msg [("mech_name", [.bytes (ascii "MYSQL41")])])]) ∧
    (sha256Start g buf c = .ok s → readStream s.data = some
      [(.Session_AuthenticateStart, .msg [("mech_name", [.bytes (ascii "SHA256_MEMORY")])])]) ∧
    (plainStart g buf c = .ok s → (0 : UInt8) ∉ c.database → (0 : UInt8) ∉ c.userName → ∃ data,
      readStream s.data = some [(.Session_AuthenticateStart, .msg [("mech_name", [.bytes (ascii "PLAIN")]), ("auth_data", [.bytes data])])] ∧
        parseAuthData data = some (c.database, c.userName, c.password)) := by
  refine ⟨fun h => stream_reads ((C33_start g buf c).2 s h hl), fun h => stream_reads ((C34_start g buf c).2 s h hl), fun h h1 h2 => ?_⟩
  obtain ⟨data, h3, h4⟩ := (C35_plain g buf c).2 s h hl h1 h2
  exact ⟨data, stream_reads h3, h4⟩

theorem C59_continue (g : Grow) {sha1 sha256 : Bytes → Bytes} (h1 : ∀ x, (sha1 x).length = 20) (h2 : ∀ x, (sha256 x).length = 32)
    (buf s : Slice) (c : Credentials) (ch : Bytes) (hl : s.len < 2 ^ 32 + 4)
    (h : mysql41Continue g sha1 buf c ch = .ok s ∨ sha256Continue g sha256 buf c ch = .ok s) :
    ∃ token, readStream s.data = some [(.Session_AuthenticateContinue,
      .msg [("auth_data", [.bytes (c.database ++ [0] ++ c.userName ++ [0] ++ token)])])] := by
  rcases h with h | h
  · obtain ⟨t, ht, _⟩ := (C33_mysql41 g h1 buf c ch).2 s h hl
    exact ⟨t, stream_reads ht⟩
  · obtain ⟨t, ht, _⟩ := (C34_sha256 g h2 buf c ch).2 s h hl
    exact ⟨t, stream_reads ht⟩

/-- **C59**, for the request for TLS. -/
theorem C59_capability (name b : Bytes) (enable : Bool) (h : capabilitySet name enable = .ok b) (hl : b.length < 2 ^ 32 + 4) :
    readStream b = some [(.Connection_CapabilitiesSet, .msg [("capabilities", [.msg [("capabilities", [.msg [("name", [.bytes name]),
      ("value", [.msg [("type", [.enum "SCALAR"]), ("scalar", [.msg [("type", [.enum "V_BOOL"]), ("v_bool", [.bool enable])]])]])]])]])])] :=
  stream_reads ((C54_capability name enable).2 b h hl)

/-- **C59**, for the message that resets a session (no caller in /repo so far). -/
theorem C59_reset (g : Grow) (p s : Slice) (keepOpen : Bool) (h : reset g p keepOpen = .ok s) :
    ∃ b, s.data = p.data ++ b ∧ readStream b = some [(.Session_Reset, .msg (if keepOpen then [("keep_open", [.bool true])] else []))] := by
  rcases reset_post (g := g) (p := p) keepOpen with h' | ⟨sp, h'⟩
  · rw [h'] at h; cases h
  · rw [h'] at h; cases h
    refine ⟨_, rfl, ?_⟩
    have h1 : codeFrame (.reset (some true)) = [3, 0, 0, 0, 6, 8, 1] := by decide +kernel
    have h2 : codeFrame (.reset none) = [1, 0, 0, 0, 6] := by decide +kernel
    cases keepOpen
    · rw [if_neg (by simp), if_neg (by simp), h2]; rfl
    · rw [if_pos rfl, if_pos rfl, h1]; rfl

/-! ### cases -/

example : ((reset growEx ⟨[7], List.replicate 8 0⟩ true).toOption.map (·.data)) = some [7, 3, 0, 0, 0, 6, 8, 1] := by decide

/-- The ten messages of `progEx`. -/
example : ((appended builderEx progEx).bind readStream).map (·.map Prod.fst) = some [.Expect_Open, .Sql_StmtExecute,
    .Sql_StmtExecute, .Crud_Insert, .Sql_StmtExecute, .Crud_Update, .Crud_Insert, .Sql_StmtExecute, .Expect_Close, .Prepare_Deallocate] := by
  decide +kernel

/-- `InsertRow("t", ["a"], -1)`, byte by byte, and what the bytes say. -/
example : (appended builderEx (.call (.insertRow (ascii "t") [ascii "a"] [.int (-1)]) fun _ => .ret none [])).map (·.take 29) =
    some [25, 0, 0, 0, 18, 10, 3, 10, 1, 116, 16, 2, 26, 3, 10, 1, 97, 34, 10, 10, 8, 8, 2, 34, 4, 8, 1, 16, 1] := by decide +kernel

example : readStream [25, 0, 0, 0, 18, 10, 3, 10, 1, 116, 16, 2, 26, 3, 10, 1, 97, 34, 10, 10, 8, 8, 2, 34, 4, 8, 1, 16, 1] =
    some [(.Crud_Insert, .msg [("collection", [.msg [("name", [.bytes (ascii "t")])]]), ("data_model", [.enum "TABLE"]),
      ("projection", [.msg [("name", [.bytes (ascii "a")])]]), ("row", [.msg [("field", [.msg [("type", [.enum "LITERAL"]),
        ("literal", [.msg [("type", [.enum "V_SINT"]), ("v_signed_int", [.int (-1)])]])]])]])])] := by
  rfl

/-- The request of connector.go:68. -/
example : ∃ b, capabilitySet (ascii "tls") true = .ok b ∧ b.length = 24 ∧ (readStream b).isSome :=
  ⟨_, capabilitySet_tls, rfl, by rw [C59_capability _ _ _ capabilitySet_tls (by decide)]; rfl⟩

/-- The reader is not lenient: a missing required field, an undeclared field, a value of the wrong wire type, a field
given twice and an undeclared value of an enumeration are refused. -/
example : readMessage 42 [] = none ∧ readMessage 42 [8, 7, 16, 1] = none ∧ readMessage 42 [10, 1, 7] = none ∧
    readMessage 42 [8, 7, 8, 7] = none ∧ readMessage 24 [8, 2] = none ∧ (readMessage 42 [8, 7]).isSome ∧ (readMessage 24 [8, 1]).isSome := by
  refine ⟨?_, ?_, ?_, ?_, ?_, ?_, ?_⟩ <;> rfl

end Verif.Props

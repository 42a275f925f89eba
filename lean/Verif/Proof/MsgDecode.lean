import Verif.Proof.MsgEnc
/-! Whole messages and streams are recovered by the strict readers. -/
namespace Verif.Proof
open Verif.Go Verif.Spec Verif.Model

/-! ### field lists -/

theorem many_append (a b : List Field) (t : Nat) : many (a ++ b) t = many a t ++ many b t := by
  simp [many]

theorem many_cons_eq (t : Nat) (v : WireVal) (fs : List Field) : many ((t, v) :: fs) t = v :: many fs t := by
  simp [many]

theorem many_cons_ne {t u : Nat} (h : u ≠ t) (v : WireVal) (fs : List Field) :
    many ((u, v) :: fs) t = many fs t := by
  simp [many, h]

@[simp] theorem many_nil (t : Nat) : many [] t = [] := rfl

/-- a repeated length-delimited field -/
def repField {α : Type} (t : Nat) (f : α → Bytes) (xs : List α) : List Field := xs.map fun x => (t, .bytes (f x))

theorem many_rep {α : Type} (t : Nat) (f : α → Bytes) (xs : List α) :
    many (repField t f xs) t = xs.map fun x => .bytes (f x) := by
  induction xs with
  | nil => rfl
  | cons x xs ih => simp [repField, many] at ih ⊢; exact ih

theorem many_rep_ne {α : Type} {t u : Nat} (h : u ≠ t) (f : α → Bytes) (xs : List α) :
    many (repField u f xs) t = [] := by
  simp [many, repField, h]

theorem onlyTags_append (ts : List Nat) (a b : List Field) :
    onlyTags ts (a ++ b) = (onlyTags ts a && onlyTags ts b) := by simp [onlyTags]

theorem onlyTags_rep {α : Type} {ts : List Nat} {t : Nat} (h : t ∈ ts) (f : α → Bytes) (xs : List α) :
    onlyTags ts (repField t f xs) = true := by
  simp [onlyTags, repField, h]

theorem onlyTags_cons (ts : List Nat) (t : Nat) (v : WireVal) (fs : List Field) :
    onlyTags ts ((t, v) :: fs) = (ts.contains t && onlyTags ts fs) := by simp [onlyTags]

theorem encFields_rep {α : Type} (t : Nat) (f : α → Bytes) (xs : List α) :
    encFields (repField t f xs) = xs.flatMap fun x => encField (t, .bytes (f x)) := by
  induction xs with
  | nil => rfl
  | cons x xs ih =>
    rw [List.flatMap_cons, ← ih]; rfl

theorem numOK_rep {α : Type} {t : Nat} (h0 : 0 < t) (h1 : t < 2 ^ 29) (f : α → Bytes) (xs : List α) :
    ∀ x ∈ repField t f xs, FieldNumOK x := by
  simp only [repField, List.mem_map]
  rintro _ ⟨x, _, rfl⟩
  exact ⟨h0, h1⟩

theorem decodeAll_map {α : Type} (d : Bytes → Option α) (f : α → Bytes) (xs : List α)
    (h : ∀ x ∈ xs, d (f x) = some x) : decodeAll d (xs.map f) = some xs := by
  induction xs with
  | nil => rfl
  | cons x xs ih =>
    rw [List.map_cons, decodeAll, h x (by simp), ih (fun y hy => h y (by simp [hy]))]

theorem mem_rep {α : Type} {t : Nat} {f : α → Bytes} {xs : List α} {x : α} (h : x ∈ xs) :
    ((t, .bytes (f x)) : Field) ∈ repField t f xs := by
  simp only [repField, List.mem_map]; exact ⟨x, h, rfl⟩

/-! ### canonical fields of messages -/

def optBytesF {α : Type} (t : Nat) (f : α → Bytes) : Option α → List Field
  | none => []
  | some x => [(t, .bytes (f x))]

def nameFields (name : Bytes) : Bytes := encFields [(1, .bytes name)]
def rowFields (es : List PExpr) : Bytes := encFields (repField 1 encExpr es)
def setFields (s : Bytes × PExpr) : Bytes :=
  encFields [(1, .bytes (encFields [(2, .bytes s.1)])), (2, .varint 1), (3, .bytes (encExpr s.2))]
def condFields (c : Nat × Bytes) : Bytes := encFields [(1, .varint c.1), (2, .bytes c.2)]
def capFields (c : Bytes × PScalar) : Bytes := encFields [(1, .bytes c.1), (2, .bytes (encAny c.2))]

def msgFields : ClientMsg → List Field
  | .stmtExecute stmt args => (1, .bytes stmt) :: repField 2 encAny args
  | .prepare id stmt => [(1, .varint id), (2, .bytes (encFields [(1, .varint 5), (6, .bytes (nameFields stmt))]))]
  | .execute id args => (1, .varint id) :: repField 2 encAny args
  | .deallocate id => [(1, .varint id)]
  | .insert t dm cs rows => (1, .bytes (nameFields t)) :: (optField 2 dm ++
      (repField 3 nameFields cs ++ repField 4 rowFields rows))
  | .update t dm crit sets => (2, .bytes (nameFields t)) :: (optField 3 dm ++
      (optBytesF 4 encExpr crit ++ repField 7 setFields sets))
  | .delete t dm crit => (1, .bytes (nameFields t)) :: (optField 2 dm ++ optBytesF 3 encExpr crit)
  | .expectOpen op cs => (1, .varint op) :: repField 2 condFields cs
  | .expectClose => []
  | .reset none => []
  | .reset (some b) => [(1, .varint (if b then 1 else 0))]
  | .authStart m d => (1, .bytes m) :: optBytesF 2 id d
  | .authContinue d => [(1, .bytes d)]
  | .capabilitiesSet caps => [(1, .bytes (encFields (repField 1 capFields caps)))]

/-- expressions that survive the trip -/
def GoodExpr (e : PExpr) : Prop := ExprOK e ∧ varsShort e = true

/-- messages that survive the trip -/
def GoodMsg : ClientMsg → Prop
  | .stmtExecute _ args => ∀ s ∈ args, ScalarOK s
  | .prepare id _ => id < 2 ^ 32
  | .execute id args => id < 2 ^ 32 ∧ ∀ s ∈ args, ScalarOK s
  | .deallocate id => id < 2 ^ 32
  | .insert _ dm _ rows => (dm = none ∨ dm = some 1 ∨ dm = some 2) ∧ ∀ r ∈ rows, ∀ e ∈ r, GoodExpr e
  | .update _ dm crit sets => (dm = none ∨ dm = some 1 ∨ dm = some 2) ∧ (∀ e ∈ crit, GoodExpr e) ∧
      ∀ s ∈ sets, GoodExpr s.2
  | .delete _ dm crit => (dm = none ∨ dm = some 1 ∨ dm = some 2) ∧ (∀ e ∈ crit, GoodExpr e)
  | .expectOpen op cs => op ≤ 1 ∧ ∀ c ∈ cs, c.1 < 2 ^ 32
  | .capabilitiesSet caps => ∀ c ∈ caps, ScalarOK c.2
  | _ => True

def msgType : ClientMsg → UInt8
  | .stmtExecute .. => 12
  | .prepare .. => 40
  | .execute .. => 41
  | .deallocate .. => 42
  | .insert .. => 18
  | .update .. => 19
  | .delete .. => 20
  | .expectOpen .. => 24
  | .expectClose => 25
  | .reset .. => 6
  | .authStart .. => 4
  | .authContinue .. => 5
  | .capabilitiesSet .. => 2

theorem argsF_eq (args : List PScalar) : argsF args = encFields (repField 2 encAny args) := by
  rw [encFields_rep]; rfl

theorem flatMap_congr' {α β : Type} {f g : α → List β} {xs : List α} (h : ∀ x ∈ xs, f x = g x) :
    xs.flatMap f = xs.flatMap g := by
  induction xs with
  | nil => rfl
  | cons x xs ih => simp [h x (by simp), ih (fun y hy => h y (by simp [hy]))]

theorem rowBody_eq {es : List PExpr} (h : ∀ e ∈ es, GoodExpr e) : rowBody es = rowFields es := by
  rw [rowBody, rowFields, encFields_rep]
  exact flatMap_congr' fun e he => codeExprF_eq (tag := 1) (by decide) e (h e he).2

theorem setF_eq {s : Bytes × PExpr} (h : GoodExpr s.2) : setF s = encField (7, .bytes (setFields s)) := by
  rw [setF, codeExprF_eq (tag := 3) (by decide) _ h.2]
  simp [setFields, encFields, exprF]

theorem critF_eq {tag : UInt8} (ht : tag.toNat < 16) {c : Option PExpr} (h : ∀ e ∈ c, GoodExpr e) :
    critF tag c = encFields (optBytesF tag.toNat encExpr c) := by
  cases c with
  | none => rfl
  | some e => rw [critF, codeExprF_eq ht e (h e rfl).2]; simp [optBytesF, encFields, exprF]

theorem optDM_eq (t : Nat) (dm : Option Nat) : optDM t dm = encFields (optField t dm) := by
  cases dm <;> simp [optDM, optField, encFields]

theorem codeMsg_eq {m : ClientMsg} (h : GoodMsg m) : codeMsg m = (msgType m, encFields (msgFields m)) := by
  cases m with
  | stmtExecute s args => simp [codeMsg, msgType, msgFields, encFields, argsF_eq]
  | prepare id s => simp [codeMsg, msgType, msgFields, nameFields]
  | execute s args => simp [codeMsg, msgType, msgFields, encFields, argsF_eq]
  | deallocate id => rfl
  | insert t dm cs rows =>
    simp only [codeMsg, msgType, msgFields, encFields, encFields_append, nameFields, optDM_eq, encFields_rep, columnsF]
    rw [flatMap_congr' (f := rowF) (g := fun r => encField (4, .bytes (rowFields r)))
      (fun r hr => by rw [rowF, rowBody_eq (h.2 r hr)])]
  | update t dm crit sets =>
    simp only [codeMsg, msgType, msgFields, encFields, encFields_append, nameFields, optDM_eq, encFields_rep]
    rw [flatMap_congr' (f := setF) (g := fun r => encField (7, .bytes (setFields r)))
      (fun r hr => setF_eq (h.2.2 r hr)), critF_eq (tag := 4) (by decide) h.2.1]
    rfl
  | delete t dm crit =>
    simp only [codeMsg, msgType, msgFields, encFields, encFields_append, nameFields, optDM_eq]
    rw [critF_eq (tag := 3) (by decide) h.2]
    rfl
  | expectOpen op cs =>
    have hop : op < 128 := by have := h.1; omega
    have e1 : encField (1, .varint op) = [8, UInt8.ofNat op] := by
      rw [encField, varint_small hop, varint_small (by omega)]; rfl
    simp only [codeMsg, msgType, msgFields, encFields, encFields_rep, e1]
    rfl
  | expectClose => rfl
  | reset k => cases k <;> rfl
  | authStart m d => cases d <;> rfl
  | authContinue d => rfl
  | capabilitiesSet caps => simp [codeMsg, msgType, msgFields, encFields_rep, capFields]

/-! ### decoding -/

section
variable {L : Nat}

theorem decodeName_enc {name : Bytes} (hl : (nameFields name).length < 2 ^ 64) :
    decodeName (nameFields name) = some name := by
  rw [decodeName, nameFields, readFields_enc hl (by simp [FieldNumOK])]
  simp [onlyTags, reqBytes, single, many]

theorem decodeRow_enc {es : List PExpr} (h : ∀ e ∈ es, GoodExpr e) (hl : (rowFields es).length < 2 ^ 64) :
    decodeRow (rowFields es) = some es := by
  rw [decodeRow, rowFields, readFields_enc hl (numOK_rep (by omega) (by omega) _ _)]
  simp only [onlyTags_rep (ts := [1]) (t := 1) (by simp), repBytes, many_rep, allBytes_map, Option.bind_some, if_true]
  exact decodeAll_map _ _ _ fun e he => decodeExpr_enc e (h e he).1 (by
    have := bytes_lt_encFields (mem_rep (t := 1) (f := encExpr) he)
    rw [rowFields] at hl; omega)

theorem decodeSet_enc {s : Bytes × PExpr} (h : GoodExpr s.2) (hl : (setFields s).length < 2 ^ 64) :
    decodeSet (setFields s) = some s := by
  have h1 := bytes_lt_encFields (t := 1) (b := encFields [(2, .bytes s.1)])
    (fs := [(1, .bytes (encFields [(2, .bytes s.1)])), (2, .varint 1), (3, .bytes (encExpr s.2))]) (by simp)
  have h3 := bytes_lt_encFields (t := 3) (b := encExpr s.2)
    (fs := [(1, .bytes (encFields [(2, .bytes s.1)])), (2, .varint 1), (3, .bytes (encExpr s.2))]) (by simp)
  rw [setFields] at hl ⊢
  rw [decodeSet, readFields_enc hl (by simp [FieldNumOK])]
  simp [onlyTags, reqBytes, reqVarint, single, many, decodeColumnIdentifier,
    readFields_enc (fs := [(2, .bytes s.1)]) (by omega) (by simp [FieldNumOK]), decodeExpr_enc s.2 h.1 (by omega)]

theorem decodeCond_enc {c : Nat × Bytes} (h : c.1 < 2 ^ 32) (hl : (condFields c).length < 2 ^ 64) :
    decodeCond (condFields c) = some c := by
  rw [condFields] at hl ⊢
  rw [decodeCond, readFields_enc hl (by simp [FieldNumOK]; omega)]
  simp [onlyTags, reqBytes, reqUint32, reqVarint, single, many, h]

theorem decodeCapability_enc {c : Bytes × PScalar} (h : ScalarOK c.2) (hl : (capFields c).length < 2 ^ 64) :
    decodeCapability (capFields c) = some c := by
  have h1 := bytes_lt_encFields (t := 2) (b := encAny c.2)
    (fs := [(1, .bytes c.1), (2, .bytes (encAny c.2))]) (by simp)
  rw [capFields] at hl ⊢
  rw [decodeCapability, readFields_enc hl (by simp [FieldNumOK])]
  simp [onlyTags, reqBytes, single, many, decodeAny_enc c.2 h (by omega)]

theorem numOK_optField {t : Nat} (h0 : 0 < t) (h1 : t < 2 ^ 29) {o : Option Nat} (h : ∀ x ∈ o, x < 2 ^ 64) :
    ∀ x ∈ optField t o, FieldNumOK x := by
  cases o with
  | none => simp [optField]
  | some x => simp [optField, FieldNumOK]; exact ⟨h0, h1, h x rfl⟩

theorem numOK_optBytes {α : Type} {t : Nat} (h0 : 0 < t) (h1 : t < 2 ^ 29) (f : α → Bytes) (o : Option α) :
    ∀ x ∈ optBytesF t f o, FieldNumOK x := by
  cases o with
  | none => simp [optBytesF]
  | some x => simp [optBytesF, FieldNumOK]; exact ⟨h0, h1⟩

theorem numOK_append {a b : List Field} (ha : ∀ x ∈ a, FieldNumOK x) (hb : ∀ x ∈ b, FieldNumOK x) :
    ∀ x ∈ a ++ b, FieldNumOK x := by
  intro x hx
  rcases List.mem_append.mp hx with h | h
  · exact ha x h
  · exact hb x h

theorem numOK_cons {f : Field} {b : List Field} (ha : FieldNumOK f) (hb : ∀ x ∈ b, FieldNumOK x) :
    ∀ x ∈ f :: b, FieldNumOK x := by
  intro x hx
  rcases List.mem_cons.mp hx with h | h
  · subst h; exact ha
  · exact hb x h

theorem many_optField (t : Nat) (o : Option Nat) : many (optField t o) t = (o.map WireVal.varint).toList := by
  cases o <;> simp [optField, many]

theorem many_optField_ne {t u : Nat} (h : u ≠ t) (o : Option Nat) : many (optField u o) t = [] := by
  cases o <;> simp [optField, many, h]

theorem many_optBytes {α : Type} (t : Nat) (f : α → Bytes) (o : Option α) :
    many (optBytesF t f o) t = (o.map fun x => WireVal.bytes (f x)).toList := by
  cases o <;> simp [optBytesF, many]

theorem many_optBytes_ne {α : Type} {t u : Nat} (h : u ≠ t) (f : α → Bytes) (o : Option α) :
    many (optBytesF u f o) t = [] := by
  cases o <;> simp [optBytesF, many, h]

theorem onlyTags_optField {ts : List Nat} {t : Nat} (h : t ∈ ts) (o : Option Nat) : onlyTags ts (optField t o) = true := by
  cases o <;> simp [optField, onlyTags, h]

theorem onlyTags_optBytes {α : Type} {ts : List Nat} {t : Nat} (h : t ∈ ts) (f : α → Bytes) (o : Option α) :
    onlyTags ts (optBytesF t f o) = true := by
  cases o <;> simp [optBytesF, onlyTags, h]

theorem dm_small {dm : Option Nat} (h : dm = none ∨ dm = some 1 ∨ dm = some 2) : ∀ x ∈ dm, x < 2 ^ 64 := by
  rcases h with rfl | rfl | rfl <;> simp

theorem decodeMsg_enc {m : ClientMsg} (h : GoodMsg m) (hl : (encFields (msgFields m)).length < 2 ^ 64) :
    decodeMsg (msgType m) (encFields (msgFields m)) = some m := by
  cases m with
  | stmtExecute s args =>
    show decodeStmtExecute _ = _
    rw [decodeStmtExecute, readFields_enc hl (numOK_cons (by simp [FieldNumOK]) (numOK_rep (by omega) (by omega) _ _))]
    simp [msgFields, onlyTags_cons, onlyTags_rep, reqBytes, single, repBytes, many_cons_eq, many_cons_ne, many_rep,
      many_rep_ne, allBytes_map]
    rw [decodeAll_map _ _ _ fun e he => decodeAny_enc e (h e he) (by
      have := bytes_lt_encFields (fs := msgFields (.stmtExecute s args)) (t := 2) (b := encAny e)
        (List.mem_cons_of_mem _ (mem_rep he))
      omega)]
  | execute id args =>
    show decodeExecute _ = _
    have hid := h.1
    rw [decodeExecute, readFields_enc hl (numOK_cons (by simp [FieldNumOK]; omega) (numOK_rep (by omega) (by omega) _ _))]
    simp [msgFields, onlyTags_cons, onlyTags_rep, reqUint32, reqVarint, single, repBytes, many_cons_eq, many_cons_ne, many_rep,
      many_rep_ne, allBytes_map, hid]
    rw [decodeAll_map _ _ _ fun e he => decodeAny_enc e (h.2 e he) (by
      have := bytes_lt_encFields (fs := msgFields (.execute id args)) (t := 2) (b := encAny e)
        (List.mem_cons_of_mem _ (mem_rep he))
      omega)]
  | prepare id s =>
    show decodePrepare _ = _
    have hid : id < 2 ^ 32 := h
    have h1 := bytes_lt_encFields (t := 2) (b := (encFields [(1, .varint 5), (6, .bytes (nameFields s))]))
      (fs := msgFields (.prepare id s)) (by simp [msgFields])
    have h2 := bytes_lt_encFields (t := 6) (b := nameFields s)
      (fs := [(1, .varint 5), (6, .bytes (nameFields s))]) (by simp)
    rw [decodePrepare, readFields_enc hl (by simp [msgFields, FieldNumOK]; omega)]
    have e1 : decodeStmtExecute (nameFields s) = some (.stmtExecute s []) := by
      rw [decodeStmtExecute, nameFields, readFields_enc (by rw [nameFields] at h1 h2; omega) (by simp [FieldNumOK])]
      simp [onlyTags, reqBytes, single, many, repBytes, allBytes, decodeAll]
    simp [msgFields, onlyTags, reqUint32, reqVarint, reqBytes, single, many, hid, decodeOneOf,
      readFields_enc (fs := [(1, .varint 5), (6, .bytes (nameFields s))]) (by omega) (by simp [FieldNumOK]), e1]
  | deallocate id =>
    show decodeDeallocate _ = _
    have hid : id < 2 ^ 32 := h
    rw [decodeDeallocate, readFields_enc hl (by simp [msgFields, FieldNumOK]; omega)]
    simp [msgFields, onlyTags, reqUint32, reqVarint, single, many, hid]
  | insert t dm cs rows =>
    show decodeInsert _ = _
    rw [decodeInsert, readFields_enc hl (numOK_cons (by simp [FieldNumOK]) (numOK_append
      (numOK_optField (by omega) (by omega) (dm_small h.1))
      (numOK_append (numOK_rep (by omega) (by omega) _ _) (numOK_rep (by omega) (by omega) _ _))))]
    have hn := bytes_lt_encFields (t := 1) (b := nameFields t) (fs := msgFields (.insert t dm cs rows)) (by simp [msgFields])
    have e1 := decodeName_enc (name := t) (by omega)
    have e3 := decodeAll_map decodeName nameFields cs fun e he => decodeName_enc (by
      have := bytes_lt_encFields (fs := msgFields (.insert t dm cs rows)) (t := 3) (b := nameFields e)
        (by simp [msgFields, mem_rep he])
      omega)
    have e4 := decodeAll_map decodeRow rowFields rows fun e he => decodeRow_enc (h.2 e he) (by
      have := bytes_lt_encFields (fs := msgFields (.insert t dm cs rows)) (t := 4) (b := rowFields e)
        (by simp [msgFields, mem_rep he])
      omega)
    have e2 : optDataModel (msgFields (.insert t dm cs rows)) 2 = some dm := by
      simp only [msgFields, optDataModel, optVarint, single]
      rw [many_cons_ne (by omega), many_append, many_append, many_optField, many_rep_ne (by omega), many_rep_ne (by omega)]
      rcases h.1 with rfl | rfl | rfl <;> simp
    dsimp only
    rw [e2]
    simp only [msgFields, onlyTags_cons, onlyTags_append, onlyTags_rep (ts := [1, 2, 3, 4]) (t := 3) (by simp),
      onlyTags_rep (ts := [1, 2, 3, 4]) (t := 4) (by simp), onlyTags_optField (ts := [1, 2, 3, 4]) (t := 2) (by simp),
      reqBytes, single, repBytes, many_cons_eq, many_append]
    rw [many_optField_ne (by omega), many_rep_ne (by omega), many_rep_ne (by omega),
      many_cons_ne (by omega), many_append, many_append, many_optField_ne (by omega), many_rep,
      many_rep_ne (by omega) rowFields,
      many_cons_ne (by omega), many_append, many_append, many_optField_ne (by omega), many_rep_ne (by omega) nameFields, many_rep]
    simp [allBytes_map, e1, e3, e4]
  | update t dm crit sets =>
    show decodeUpdate _ = _
    rw [decodeUpdate, readFields_enc hl (numOK_cons (by simp [FieldNumOK]) (numOK_append
      (numOK_optField (by omega) (by omega) (dm_small h.1))
      (numOK_append (numOK_optBytes (by omega) (by omega) _ _) (numOK_rep (by omega) (by omega) _ _))))]
    have hn := bytes_lt_encFields (t := 2) (b := nameFields t) (fs := msgFields (.update t dm crit sets)) (by simp [msgFields])
    have e1 := decodeName_enc (name := t) (by omega)
    have e4 := decodeAll_map decodeSet setFields sets fun e he => decodeSet_enc (h.2.2 e he) (by
      have := bytes_lt_encFields (fs := msgFields (.update t dm crit sets)) (t := 7) (b := setFields e)
        (by simp [msgFields, mem_rep he])
      omega)
    have e2 : optDataModel (msgFields (.update t dm crit sets)) 3 = some dm := by
      simp only [msgFields, optDataModel, optVarint, single]
      rw [many_cons_ne (by omega), many_append, many_append, many_optField, many_rep_ne (by omega), many_optBytes_ne (by omega)]
      rcases h.1 with rfl | rfl | rfl <;> simp
    have e3 : optExpr (msgFields (.update t dm crit sets)) 4 = some crit := by
      simp only [msgFields, optExpr, optBytes, single]
      rw [many_cons_ne (by omega), many_append, many_append, many_optField_ne (by omega), many_rep_ne (by omega), many_optBytes]
      cases crit with
      | none => simp
      | some c =>
        have := bytes_lt_encFields (fs := msgFields (.update t dm (some c) sets)) (t := 4) (b := encExpr c)
          (by simp [msgFields, optBytesF])
        simp [decodeExpr_enc c (h.2.1 c rfl).1 (by omega)]
    dsimp only
    rw [e2, e3]
    simp only [msgFields, onlyTags_cons, onlyTags_append, onlyTags_optBytes (ts := [2, 3, 4, 7]) (t := 4) (by simp),
      onlyTags_rep (ts := [2, 3, 4, 7]) (t := 7) (by simp), onlyTags_optField (ts := [2, 3, 4, 7]) (t := 3) (by simp),
      reqBytes, single, repBytes, many_cons_eq, many_append]
    rw [many_optField_ne (by omega), many_optBytes_ne (by omega), many_rep_ne (by omega),
      many_cons_ne (by omega), many_append, many_append, many_optField_ne (by omega), many_optBytes_ne (by omega), many_rep]
    simp [allBytes_map, e1, e4]
  | delete t dm crit =>
    show decodeDelete _ = _
    rw [decodeDelete, readFields_enc hl (numOK_cons (by simp [FieldNumOK]) (numOK_append
      (numOK_optField (by omega) (by omega) (dm_small h.1))
      (numOK_optBytes (by omega) (by omega) _ _)))]
    have hn := bytes_lt_encFields (t := 1) (b := nameFields t) (fs := msgFields (.delete t dm crit)) (by simp [msgFields])
    have e1 := decodeName_enc (name := t) (by omega)
    have e2 : optDataModel (msgFields (.delete t dm crit)) 2 = some dm := by
      simp only [msgFields, optDataModel, optVarint, single]
      rw [many_cons_ne (by omega), many_append, many_optField, many_optBytes_ne (by omega)]
      rcases h.1 with rfl | rfl | rfl <;> simp
    have e3 : optExpr (msgFields (.delete t dm crit)) 3 = some crit := by
      simp only [msgFields, optExpr, optBytes, single]
      rw [many_cons_ne (by omega), many_append, many_optField_ne (by omega), many_optBytes]
      cases crit with
      | none => simp
      | some c =>
        have := bytes_lt_encFields (fs := msgFields (.delete t dm (some c))) (t := 3) (b := encExpr c)
          (by simp [msgFields, optBytesF])
        simp [decodeExpr_enc c (h.2 c rfl).1 (by omega)]
    dsimp only
    rw [e2, e3]
    simp only [msgFields, onlyTags_cons, onlyTags_append, onlyTags_optBytes (ts := [1, 2, 3]) (t := 3) (by simp),
      onlyTags_optField (ts := [1, 2, 3]) (t := 2) (by simp), reqBytes, single, many_cons_eq, many_append]
    rw [many_optField_ne (by omega), many_optBytes_ne (by omega)]
    simp [e1]
  | expectOpen op cs =>
    show decodeExpectOpen _ = _
    have hop := h.1
    rw [decodeExpectOpen, readFields_enc hl (numOK_cons (by simp [FieldNumOK]; omega) (numOK_rep (by omega) (by omega) _ _))]
    simp [msgFields, onlyTags_cons, onlyTags_rep, reqVarint, single, repBytes, many_cons_eq, many_cons_ne, many_rep,
      many_rep_ne, allBytes_map]
    rw [decodeAll_map _ _ _ fun e he => decodeCond_enc (h.2 e he) (by
      have := bytes_lt_encFields (fs := msgFields (.expectOpen op cs)) (t := 2) (b := condFields e)
        (List.mem_cons_of_mem _ (mem_rep he))
      omega)]
    simp [hop]
  | expectClose => rfl
  | reset k =>
    show decodeReset _ = _
    rw [decodeReset, readFields_enc hl (by cases k with
      | none => simp [msgFields]
      | some b => cases b <;> simp [msgFields, FieldNumOK])]
    cases k with
    | none => simp [msgFields, onlyTags, optVarint, single, many]
    | some b => cases b <;> simp [msgFields, onlyTags, optVarint, single, many]
  | authStart m d =>
    show decodeAuthStart _ = _
    rw [decodeAuthStart, readFields_enc hl (numOK_cons (by simp [FieldNumOK]) (numOK_optBytes (by omega) (by omega) _ _))]
    cases d <;> simp [msgFields, optBytesF, onlyTags, reqBytes, optBytes, single, many]
  | authContinue d =>
    show decodeAuthContinue _ = _
    rw [decodeAuthContinue, readFields_enc hl (by simp [msgFields, FieldNumOK])]
    simp [msgFields, onlyTags, reqBytes, single, many]
  | capabilitiesSet caps =>
    show decodeCapabilitiesSet _ = _
    have h1 := bytes_lt_encFields (t := 1) (b := encFields (repField 1 capFields caps))
      (fs := msgFields (.capabilitiesSet caps)) (by simp [msgFields])
    rw [decodeCapabilitiesSet, readFields_enc hl (by simp [msgFields, FieldNumOK])]
    have e := decodeAll_map decodeCapability capFields caps fun e he => decodeCapability_enc (h e he) (by
      have := bytes_lt_encFields (t := 1) (b := capFields e) (mem_rep he)
      omega)
    have e2 : decodeCapabilities (encFields (repField 1 capFields caps)) = some caps := by
      rw [decodeCapabilities, readFields_enc (by omega) (numOK_rep (by omega) (by omega) _ _)]
      simp only [onlyTags_rep (ts := [1]) (t := 1) (by simp), repBytes, many_rep, allBytes_map, Option.bind_some, if_true, e]
    simp [msgFields, onlyTags, reqBytes, single, many, e2]
end

/-! ### frames -/

theorem readFrame_frame (f : UInt8 × Bytes) (rest : Bytes) (h : f.2.length + 1 < 2 ^ 32) :
    readFrame (frame f ++ rest) = some (f, rest) := by
  rw [readFrame, frame, List.append_assoc, readFixed_fixed 4 _ _ (by omega)]
  have : readN (f.2.length + 1) (f.1 :: f.2 ++ rest) = some (f.1 :: f.2, rest) := by
    have := readN_append (f.1 :: f.2) rest
    simpa using this
  dsimp only
  rw [this]

theorem readFramesAux_frames (fs : List (UInt8 × Bytes)) : ∀ fuel, (fs.flatMap frame).length ≤ fuel →
    (∀ f ∈ fs, f.2.length + 1 < 2 ^ 32) → readFramesAux fuel (fs.flatMap frame) = some fs := by
  induction fs with
  | nil => intro fuel _ _; cases fuel <;> simp [readFramesAux]
  | cons f fs ih =>
    intro fuel hf h
    have hr := readFrame_frame f (fs.flatMap frame) (h f (by simp))
    have hlen : 5 ≤ (frame f).length := by simp [frame, fixed_length]; omega
    rw [List.flatMap_cons] at hf ⊢
    obtain ⟨b, bs, hb⟩ : ∃ b bs, frame f ++ fs.flatMap frame = b :: bs := by
      cases h : frame f ++ fs.flatMap frame with
      | nil => have := congrArg List.length h; simp at this; simp [this] at hlen
      | cons b bs => exact ⟨b, bs, rfl⟩
    obtain ⟨k, rfl⟩ : ∃ k, fuel = k + 1 := ⟨fuel - 1, by rw [List.length_append] at hf; omega⟩
    rw [hb, readFramesAux, ← hb, hr]
    simp [ih k (by rw [List.length_append] at hf; omega) (fun f hf => h f (by simp [hf]))]

theorem readFrames_frames {fs : List (UInt8 × Bytes)} (h : ∀ f ∈ fs, f.2.length + 1 < 2 ^ 32) :
    readFrames (fs.flatMap frame) = some fs := readFramesAux_frames fs _ (Nat.le_refl _) h

/-- a message whose frame fits the length field -/
def FitsFrame (m : ClientMsg) : Prop := (codeMsg m).2.length + 1 < 2 ^ 32

theorem decodeStream_frames {ms : List ClientMsg} (h : ∀ m ∈ ms, GoodMsg m ∧ FitsFrame m) :
    decodeStream (ms.flatMap codeFrame) = some ms := by
  have e : ms.flatMap codeFrame = (ms.map codeMsg).flatMap frame := by
    rw [List.flatMap_map]; rfl
  rw [decodeStream, e, readFrames_frames (by
    simp only [List.mem_map]
    rintro _ ⟨m, hm, rfl⟩
    exact (h m hm).2)]
  rw [Option.bind_some]
  clear e
  induction ms with
  | nil => rfl
  | cons m ms ih =>
    have hm := h m (by simp)
    have hf : (codeMsg m).2.length + 1 < 2 ^ 32 := hm.2
    rw [codeMsg_eq hm.1] at hf
    dsimp only at hf
    rw [List.map_cons, List.foldr_cons, ih (fun x hx => h x (by simp [hx])), codeMsg_eq hm.1]
    dsimp only
    rw [decodeMsg_enc hm.1 (by omega)]

end Verif.Proof

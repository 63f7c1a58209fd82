import Verif.Lemmas.JsonText
import Verif.Props.Convert
import Verif.Props.Csv

/-! # C77: the text of JSON outputs -/

namespace Pica.Props
open Pica Spec Convert

/-- A JSON text has at most one value. -/
theorem C77_unique {t : Bytes} {v w : Json} (hv : JsonText t v) (hw : JsonText t w) : v = w := by
  obtain ⟨_, a, s, b, rfl, ha, hb, h⟩ := hv
  obtain ⟨_, a', s', b', he, ha', hb', h'⟩ := hw
  obtain ⟨rfl, he1⟩ := ws_value_inj ha ha' h h' he
  have e0 : ∀ x : Bytes, JsonWs x → ValueEnd x := fun x hx => by
    have := ends_ws hx ends_nil
    rwa [List.append_nil] at this
  exact ((json_inj _).1 (Nat.le_refl _) h h' he1 (e0 b hb) (e0 b' hb')).2

/-- **C77** `convert --to json` that ends well has written a JSON text, whose value lists the
records of the input with all fields, occurrences, codes and values in their order. -/
theorem C77_text (c : ConvertCmd) (hto : c.to = .json) (hl : ∀ v, utf8Valid (c.lossy v) = true)
    (files : List (String × Bytes)) (rs : List ByteRecord) (hi : Input files rs) (out : Bytes)
    (h : c.run files = .ok out) (v : Json) :
    JsonText out v ↔ v = picaJson ((recordsOf rs).map (fun r => r.map (shownField c.lossy))) := by
  obtain ⟨s1, h1, e1⟩ := convert_ok hi h
  obtain ⟨s2, h2, e2⟩ := json_run hto rs
  rw [h1, Option.some.injEq] at h2
  subst h2
  rw [e2] at e1
  subst e1
  have key : JsonText (jsonArray ((recordsOf rs).map (jsonRecord c.lossy)))
      (picaJson ((recordsOf rs).map (fun r => r.map (shownField c.lossy)))) := by
    refine ⟨?_, [], _, [], by simp, jsonWs_nil, jsonWs_nil, jsonRecords_value c.lossy (recordsOf rs)⟩
    refine isUtf8_of_valid _ (jsonArray_utf8 fun t ht => ?_)
    obtain ⟨r, hr, rfl⟩ := List.mem_map.1 ht
    exact jsonRecord_utf8 hl (input_record hi r hr).2.1
  exact ⟨fun hv => C77_unique hv key, fun e => e ▸ key⟩

/-- **C77** in particular, the values themselves if they are valid UTF-8 -/
theorem C77_records (c : ConvertCmd) (hto : c.to = .json) (hl : ∀ v, utf8Valid (c.lossy v) = true)
    (hsame : ∀ v, utf8Valid v = true → c.lossy v = v)
    (files : List (String × Bytes)) (rs : List ByteRecord) (hi : Input files rs)
    (hu : ∀ r ∈ recordsOf rs, Utf8Record r) (out : Bytes) (h : c.run files = .ok out) (v : Json) :
    JsonText out v ↔ v = picaJson (recordsOf rs) := by
  rw [C77_text c hto hl files rs hi out h v]
  have : (recordsOf rs).map (fun r => r.map (shownField c.lossy)) = recordsOf rs := by
    rw [List.map_congr_left (g := id), List.map_id]
    intro r hr
    rw [id, List.map_congr_left (g := id), List.map_id]
    intro f hf
    have hs : f.subfields.map (fun s => (⟨s.code, c.lossy s.value⟩ : Subfield)) = f.subfields := by
      rw [List.map_congr_left (g := id), List.map_id]
      intro s hs
      rw [hsame _ (hu r hr f hf s hs), id]
    rw [shownField, hs, id]
  rw [this]

/-- what has been written while records are read: it lacks the last bracket -/
def Unclosed (out : Bytes) : Prop := ∃ ts vs, All2 JsonValue ts vs ∧ out ++ [0x5D] = jsonArray ts

theorem jsonArray_snoc (ts : List Bytes) (t out : Bytes) (h : out ++ [0x5D] = jsonArray ts) :
    (if ts = [] then out ++ t else out ++ [0x2C] ++ t) ++ [0x5D] = jsonArray (ts ++ [t]) := by
  have h' : out = 0x5B :: (ts.intersperse [0x2C]).flatten := by
    have : out ++ [0x5D] = (0x5B :: (ts.intersperse [0x2C]).flatten) ++ [0x5D] := by
      rw [h]; simp [jsonArray]
    exact List.append_cancel_right this
  subst h'
  have key : ∀ ts : List Bytes, ((ts ++ [t]).intersperse [0x2C]).flatten =
      (ts.intersperse [0x2C]).flatten ++ (if ts = [] then t else 0x2C :: t) := by
    intro ts
    induction ts with
    | nil => simp
    | cons x ts ih =>
      cases ts with
      | nil => simp
      | cons y ts =>
        simp only [List.cons_append, List.intersperse, List.flatten_cons, reduceCtorEq, if_false] at ih ⊢
        rw [ih]
        simp
  unfold jsonArray
  rw [key]
  split <;> simp

/-- **C77** If the command ends with an error, what it has written is not a JSON text: an
incomplete output cannot be taken for a complete one. -/
theorem C77_cut (c : ConvertCmd) (hto : c.to = .json) (files : List (String × Bytes)) (e : ReadErr)
    (out : Bytes) (h : c.run files = .err e out) : ¬ ∃ v, JsonText out v := by
  have hu : Unclosed out := by
    unfold ConvertCmd.run at h
    cases hr : filesLoop c.skip id c.step files ⟨c.head, 0⟩ with
    | ok s => rw [hr] at h; simp at h
    | panic => rw [hr] at h; simp at h
    | err e' s =>
      rw [hr] at h
      simp only [LoopResult.err.injEq] at h
      have hk := filesLoop_keeps (P := fun s : ConvertState => ∃ ts vs, All2 JsonValue ts vs ∧ s.count = ts.length ∧
          s.out ++ [0x5D] = jsonArray ts) (body := c.step) (skip := c.skip) ?_ files ⟨c.head, 0⟩ s ?_ (.inr ⟨e', hr⟩)
      · obtain ⟨ts, vs, h1, _, h2⟩ := hk
        exact ⟨ts, vs, h1, h.2 ▸ h2⟩
      · rintro s r s' ⟨ts, vs, h1, h2, h3⟩ hb
        have hs : ConvertCmd.write c s r = some s' := by
          unfold ConvertCmd.step at hb
          cases hw : ConvertCmd.write c s r with
          | none => rw [hw] at hb; simp at hb
          | some x => rw [hw] at hb; simp at hb; rw [hb]
        refine ⟨ts ++ [jsonRecord c.lossy r.record], vs ++ [_],
          All2.append h1 (.cons (jsonRecord_value c.lossy r.record) .nil), ?_⟩
        have hj := jsonArray_snoc ts (jsonRecord c.lossy r.record) s.out h3
        rw [ConvertCmd.write, hto] at hs
        simp only at hs
        by_cases hc : ts = []
        · rw [if_neg (by rw [h2, hc]; simp), Option.some.injEq] at hs
          rw [if_pos hc] at hj
          subst hs
          exact ⟨by simp [h2], hj⟩
        · rw [if_pos (by rw [h2]; exact List.length_pos_iff.2 hc), Option.some.injEq] at hs
          rw [if_neg hc] at hj
          subst hs
          exact ⟨by simp [h2], hj⟩
      · exact ⟨[], [], .nil, rfl, by simp [ConvertCmd.head, hto, jsonArray]⟩
  obtain ⟨ts, vs, h1, h2⟩ := hu
  rintro ⟨v, _, a, s, b, rfl, ha, hb, hv⟩
  have hfull := jsonArray_value h1
  rw [← h2] at hfull
  have he : [] ++ (((a ++ (s ++ b)) ++ [0x5D]) ++ []) = a ++ (s ++ (b ++ [0x5D])) := by simp
  obtain ⟨rfl, he1⟩ := ws_value_inj jsonWs_nil ha hfull hv he
  obtain ⟨h3, _⟩ := (json_inj _).1 (Nat.le_refl _) hfull hv he1 ends_nil (ends_ws hb (ends_cons _ (by decide)))
  have := congrArg List.length h3
  simp at this

/-! ## examples -/

/-- a text that is read as JSON -/
example : JsonText (bs "[null, [\"a\\u00e4\\n\"]]") (.arr [.null, .arr [.str (bs "aä\n")]]) := by
  refine ⟨isUtf8_of_valid _ (by decide +kernel), [], bs "[null, [\"a\\u00e4\\n\"]]", [], (by simp), jsonWs_nil,
    jsonWs_nil, ?_⟩
  have h1 : JsonString (bs "\"a\\u00e4\\n\"") (bs "aä\n") := by
    have hd : ∀ c n, (0x30 ≤ c ∧ c ≤ 0x39 ∧ n + 0x30 = c.toNat) → HexDigit c n := fun _ _ h => .inl h
    have hx : ∀ c n, (0x61 ≤ c ∧ c ≤ 0x66 ∧ n + 0x57 = c.toNat) → HexDigit c n := fun _ _ h => .inr (.inr h)
    have hu : HexUnit (bs "00e4") 'ä'.toNat := by
      have := HexUnit.mk (hd 0x30 0 (by decide)) (hd 0x30 0 (by decide)) (hx 0x65 14 (by decide)) (hd 0x34 4 (by decide))
      have e : bs "00e4" = [0x30, 0x30, 0x65, 0x34] := by decide +kernel
      rw [e]
      exact this
    have := JsonString.mk (.plain (c := 0x61) (by decide) (by decide) (by decide)
      (.unit hu (.short (e := 0x6E) (c := 0x0A) (by decide) .nil)))
    have e1 : bs "\"a\\u00e4\\n\"" = 0x22 :: ((0x61 :: 0x5C :: 0x75 :: (bs "00e4" ++ [0x5C, 0x6E])) ++ [0x22]) := by
      decide +kernel
    have e2 : bs "aä\n" = 0x61 :: (String.utf8EncodeChar 'ä' ++ [0x0A]) := by decide +kernel
    rw [e1, e2]
    exact this
  have h2 := JsonValue.arr (JsonItems.one jsonWs_nil (.str h1) jsonWs_nil)
  have h3 := JsonValue.arr (JsonItems.more jsonWs_nil .null jsonWs_nil
    (JsonItems.one (a := [0x20]) (fun c hc => by simp at hc; exact .inl hc) h2 jsonWs_nil))
  have e : bs "[null, [\"a\\u00e4\\n\"]]" = 0x5B :: (([] ++ (bs "null" ++ ([] ++ 0x2C :: ([0x20] ++ ((0x5B :: (([] ++
      (bs "\"a\\u00e4\\n\"" ++ [])) ++ [0x5D])) ++ []))))) ++ [0x5D]) := by decide +kernel
  rw [e]
  exact h3

/-- the second line is bad: the text is cut -/
example : (match ({ convertSample .json with skip := false } : ConvertCmd).run [("a", recLine "1" ++ bs "x\n")] with
    | .err _ out => some out
    | _ => none) = some (bs "[[[\"003@\",null,\"0\",\"1\"]]") := by decide +kernel

example : ∀ v, utf8Valid ((convertSample .json).lossy v) = true := by
  intro v
  show utf8Valid (if utf8Valid v then v else [0xEF, 0xBF, 0xBD]) = true
  split
  · assumption
  · decide

end Pica.Props

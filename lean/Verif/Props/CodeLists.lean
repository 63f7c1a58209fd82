import Verif.Spec.CodeLists
import Verif.Props.Checks

/-! # C97: the built-in code lists -/

namespace Pica.Props
open Pica Spec

/-- **C97** the list of the check `iso639-2b` is the separately written table of ISO 639-2/B. -/
theorem C97_iso639 (v : Bytes) : v ∈ iso639Codes ↔ IsIso6392b v := by
  have h : iso639Codes = iso6392b.flatMap (fun x => x.2.map (fun t => bs x.1 ++ bs t)) := by decide +kernel
  rw [h]
  unfold IsIso6392b
  simp only [List.mem_flatMap, List.mem_map]
  constructor
  · rintro ⟨x, hx, t, ht, rfl⟩; exact ⟨x, hx, t, ht, rfl⟩
  · rintro ⟨x, hx, t, ht, rfl⟩; exact ⟨x, hx, t, ht, rfl⟩

/-- a code as a number -/
def codeKey (v : Bytes) : Nat := v.foldl (fun a b => a * 256 + b.toNat) 0

/-- the codes as numbers -/
def isoKeys : List Nat := [
  6381938, 6382187, 6382437, 6382440, 6382689, 6382713, 6383201, 6383208, 6383218, 6383982, 6384481, 6384491,
  6384738, 6384741, 6384743, 6384756, 6385000, 6385255, 6385264, 6385761, 6386273, 6386275, 6386279, 6386285,
  6386286, 6386288, 6386292, 6386295, 6386541, 6386548, 6386792, 6387059, 6387297, 6387301, 6387553, 6388077,
  6388325, 6447460, 6447465, 6447467, 6447468, 6447469, 6447470, 6447473, 6447475, 6447476, 6448490, 6448492,
  6448493, 6448494, 6448498, 6449263, 6449512, 6449515, 6449518, 6449523, 6450273, 6450804, 6451059, 6451809,
  6451813, 6452331, 6452577, 6452583, 6452588, 6452594, 6453614, 6512996, 6513001, 6513010, 6513012, 6513013,
  6514018, 6514028, 6514785, 6514786, 6514789, 6514791, 6514793, 6514795, 6514797, 6514798, 6514799, 6514800,
  6514802, 6514805, 6514806, 6514809, 6516067, 6516338, 6516592, 6516594, 6516595, 6516837, 6516838, 6516848,
  6517349, 6517352, 6517360, 6517602, 6518131, 6519397, 6578539, 6578542, 6578546, 6578553, 6579564, 6579566,
  6580082, 6580590, 6580598, 6582121, 6582881, 6583138, 6583649, 6583661, 6583668, 6584693, 6584943, 6645353,
  6645625, 6646625, 6646904, 6647399, 6647405, 6647919, 6648692, 6649701, 6649711, 6709614, 6709615, 6709620,
  6711658, 6711660, 6711662, 6711669, 6713198, 6713957, 6713965, 6713967, 6713970, 6713971, 6713977, 6714732,
  6714738, 6775137, 6775161, 6775393, 6776173, 6776175, 6776178, 6776186, 6777196, 6777953, 6777957, 6777959,
  6777974, 6778216, 6778728, 6778734, 6778738, 6778740, 6779490, 6779491, 6779493, 6779502, 6779767, 6780266,
  6780777, 6840681, 6840692, 6840693, 6840695, 6841698, 6841714, 6842732, 6842733, 6842734, 6842740, 6843758,
  6843759, 6845046, 6845282, 6845806, 6845808, 6906465, 6906479, 6906725, 6906991, 6908265, 6908527, 6908789,
  6909029, 6909039, 6909537, 6909539, 6909540, 6909541, 6909544, 6910059, 6910561, 6910575, 6911073, 6971766,
  6972015, 6975598, 6975602, 6976098, 7037281, 7037282, 7037283, 7037292, 7037293, 7037294, 7037298, 7037299,
  7037301, 7037303, 7037306, 7037540, 7039073, 7039081, 7039085, 7039087, 7039339, 7039342, 7039346, 7040354,
  7040875, 7040877, 7040878, 7040882, 7040883, 7041125, 7041635, 7041644, 7041647, 7041653, 7042401, 7042413,
  7042418, 7042420, 7102820, 7102824, 7102829, 7102831, 7102836, 7102838, 7103866, 7104877, 7104878, 7104884,
  7106412, 7106426, 7107706, 7107937, 7107938, 7107943, 7107945, 7107950, 7107951, 7107955, 7168355, 7168356,
  7168359, 7168360, 7168361, 7168363, 7168364, 7168366, 7168367, 7168368, 7168370, 7168371, 7168377, 7169126,
  7169138, 7169390, 7169889, 7170403, 7170414, 7170419, 7170920, 7171175, 7171188, 7171683, 7171689, 7171695,
  7171944, 7171950, 7171955, 7173484, 7173486, 7173491, 7173996, 7174002, 7174510, 7174518, 7233896, 7233897,
  7233904, 7233909, 7233910, 7234156, 7234661, 7234671, 7234675, 7234928, 7234935, 7235937, 7235939, 7235957,
  7237231, 7237474, 7237479, 7237486, 7237490, 7237999, 7238511, 7239010, 7239523, 7240033, 7240045, 7240046,
  7240047, 7240297, 7299945, 7301737, 7303785, 7303789, 7304033, 7304051, 7304289, 7304303, 7364961, 7364967,
  7364972, 7364973, 7364974, 7364976, 7364981, 7365999, 7366002, 7366761, 7366766, 7367785, 7368556, 7368558,
  7368562, 7369313, 7369327, 7370099, 7435621, 7496042, 7496048, 7496050, 7499617, 7499624, 7499629, 7501165,
  7501166, 7501168, 7501171, 7561572, 7561575, 7561576, 7561577, 7561580, 7561581, 7561582, 7561587, 7561588,
  7562094, 7562095, 7562604, 7562605, 7563105, 7563118, 7563374, 7563620, 7563630, 7563631, 7563636, 7564385,
  7564399, 7564406, 7564641, 7564645, 7564649, 7564650, 7564654, 7564655, 7564659, 7564897, 7564900, 7564907,
  7565159, 7565165, 7565166, 7565172, 7565409, 7565924, 7565934, 7565936, 7565938, 7566177, 7566199, 7566699,
  7566702, 7566707, 7566712, 7567201, 7567205, 7567715, 7567730, 7627112, 7627113, 7627117, 7627124, 7628140,
  7628141, 7628146, 7628148, 7628651, 7628652, 7628897, 7629154, 7629159, 7629170, 7629174, 7629676, 7629928,
  7629929, 7630184, 7630695, 7630702, 7630953, 7631721, 7631726, 7631727, 7632235, 7632237, 7632240, 7632242,
  7632244, 7632492, 7632745, 7633270, 7693421, 7694177, 7694695, 7695218, 7695714, 7695972, 7696996, 7699042,
  7758185, 7759214, 7760229, 7761772, 7761780, 7823723, 7823724, 7823730, 7823731, 7824748, 7824750, 7826542,
  7827308, 7889260, 7891055, 7954799, 7954800, 7956836, 7958386, 7958635, 8020336, 8020588, 8021358, 8021864,
  8022113, 8023652, 8025452, 8025454, 8026232, 8026721]

theorem isoKeys_eq : iso639Codes.map codeKey = isoKeys := by decide +kernel

/-- each number is below the next one -/
def increasing : List Nat → Bool
  | a :: b :: l => Nat.ble (a + 1) b && increasing (b :: l)
  | _ => true

theorem increasing_lt : ∀ (l : List Nat) (a : Nat), increasing (a :: l) = true → ∀ b ∈ l, a < b
  | [], _, _, b, hb => by simp at hb
  | c :: l, a, h, b, hb => by
    rw [increasing, Bool.and_eq_true] at h
    have h1 : a < c := Nat.le_of_ble_eq_true h.1
    rcases List.mem_cons.1 hb with rfl | hb
    · exact h1
    · exact Nat.lt_trans h1 (increasing_lt l c h.2 b hb)

theorem increasing_nodup : ∀ l : List Nat, increasing l = true → l.Nodup
  | [], _ => List.nodup_nil
  | a :: l, h => by
    refine List.nodup_cons.2 ⟨fun hm => Nat.lt_irrefl a (increasing_lt l a h a hm), increasing_nodup l ?_⟩
    cases l with
    | nil => rfl
    | cons b l =>
      rw [increasing, Bool.and_eq_true] at h
      exact h.2

theorem nodup_of_keys {l : List Bytes} (h : (l.map codeKey).Nodup) : l.Nodup := by
  induction l with
  | nil => exact List.nodup_nil
  | cons a l ih =>
    rw [List.map_cons, List.nodup_cons] at h
    exact List.nodup_cons.2 ⟨fun hm => h.1 (List.mem_map.2 ⟨a, hm, rfl⟩), ih h.2⟩

/-- the terminological codes as numbers -/
theorem twoCodes_keys : twoCodes.all (fun x => isoKeys.all (fun k => !Nat.beq k (codeKey (bs x.2)))) = true := by
  decide +kernel

theorem twoCodes_in : twoCodes.all (fun x => iso6392b.any (fun y => y.2.any (fun t => y.1 ++ t == x.1 && bs y.1 ++ bs t == bs x.1))) = true := by
  decide +kernel

/-- **C97** of the languages with two codes the bibliographic one is accepted and the terminological one is
not, and no code is there twice. -/
theorem C97_bibliographic : iso639Codes.Nodup ∧
    ∀ x ∈ twoCodes, bs x.1 ∈ iso639Codes ∧ bs x.2 ∉ iso639Codes := by
  refine ⟨nodup_of_keys ?_, fun x hx => ⟨?_, fun hm => ?_⟩⟩
  · rw [isoKeys_eq]
    exact increasing_nodup _ (by decide +kernel)
  · obtain ⟨y, hy, h⟩ := List.any_eq_true.1 (List.all_eq_true.1 twoCodes_in x hx)
    obtain ⟨t, ht, h⟩ := List.any_eq_true.1 h
    rw [Bool.and_eq_true, beq_iff_eq, beq_iff_eq] at h
    exact (C97_iso639 _).2 ⟨y, hy, t, ht, h.2.symm⟩
  · have h1 := List.all_eq_true.1 (List.all_eq_true.1 twoCodes_keys x hx) (codeKey (bs x.2))
      (isoKeys_eq ▸ List.mem_map.2 ⟨_, hm, rfl⟩)
    simp at h1

/-- **C97** what the check reports: a record is reported if and only if some value is not a code, for records
without empty values. -/
theorem C97_check_partial (C : CheckEnv) (hl : IsLossy C.lossy) (E : Env) (o : Opts) (p : Path) (r : Record)
    (vs : List Bytes) (hv : p.values E o r = some vs) (hne : [] ∉ vs) :
    ∃ b msg, (Checks.iso639 E o p).check C r = some (.iso639 E o p, b, msg) ∧
      (b = true ↔ ∃ v ∈ vs, ¬ IsIso6392b v) := by
  obtain ⟨b, msg, h1, h2⟩ := C42_fires_partial C hl _ E o p _ .iso639 r vs hv hne
  refine ⟨b, msg, h1, h2.trans ?_⟩
  constructor
  · rintro ⟨v, hm, hn⟩; exact ⟨v, hm, fun h => hn ((C97_iso639 v).2 h)⟩
  · rintro ⟨v, hm, hn⟩; exact ⟨v, hm, fun h => hn ((C97_iso639 v).1 h)⟩

/-- A value that is a code, and two that are not: a terminological code and a reserved one. -/
example : IsIso6392b (bs "ger") ∧ ¬ IsIso6392b (bs "deu") ∧ ¬ IsIso6392b (bs "qaa") :=
  ⟨(C97_iso639 _).1 (by decide +kernel), fun h => absurd ((C97_iso639 _).2 h) (by decide +kernel),
    fun h => absurd ((C97_iso639 _).2 h) (by decide +kernel)⟩

/-- the codes of the list of `jelc` by category: letter and digit, and the digits that follow -/
def jelTree : List (String × String) := [
  ("A0", "0"), ("A1", "012349"), ("A2", "01239"), ("A3", "01239"), ("B0", "0"), ("B1", "012345679"),
  ("B2", "012345679"), ("B3", "012"), ("B4", "019"), ("B5", "0123459"), ("C0", "012"), ("C1", "01234589"),
  ("C2", "01234569"), ("C3", "012345689"), ("C4", "01234569"), ("C5", "012345789"), ("C6", "01235789"),
  ("C7", "012389"), ("C8", "0123789"), ("C9", "01239"), ("D0", "01234"), ("D1", "012345689"),
  ("D2", "01234569"), ("D3", "0139"), ("D4", "012345679"), ("D5", "0123789"), ("D6", "012349"),
  ("D7", "0123489"), ("D8", "012345679"), ("D9", "012"), ("E0", "0123"), ("E1", "01234679"),
  ("E2", "012345679"), ("E3", "01279"), ("E4", "0123479"), ("E5", "01289"), ("E6", "01234569"), ("E7", "01"),
  ("F0", "012"), ("F1", "0123456789"), ("F2", "012349"), ("F3", "0123456789"), ("F4", "01234579"),
  ("F5", "0123459"), ("F6", "012345689"), ("G0", "012"), ("G1", "012345789"), ("G2", "0123489"),
  ("G3", "01234589"), ("G4", "01"), ("G5", "01239"), ("H0", "0"), ("H1", "01239"), ("H2", "012345679"),
  ("H3", "0129"), ("H4", "012349"), ("H5", "012345679"), ("H6", "012389"), ("H7", "012345679"),
  ("H8", "0123479"), ("I0", "0"), ("I1", "01234589"), ("I2", "012345689"), ("I3", "01289"), ("J0", "018"),
  ("J1", "0123456789"), ("J2", "01234689"), ("J3", "012389"), ("J4", "0123456789"), ("J5", "0123489"),
  ("J6", "01234589"), ("J7", "0189"), ("J8", "012389"), ("K0", "0"), ("K1", "01234569"), ("K2", "0123459"),
  ("K3", "0123456789"), ("K4", "0129"), ("L0", "0"), ("L1", "012345679"), ("L2", "01234569"), ("L3", "012389"),
  ("L4", "012349"), ("L5", "01239"), ("L6", "0123456789"), ("L7", "0123489"), ("L8", "0123456789"),
  ("L9", "0123456789"), ("M0", "0"), ("M1", "01234569"), ("M2", "019"), ("M3", "01789"), ("M4", "01289"),
  ("M5", "0123459"), ("N0", "01"), ("N1", "01234567"), ("N2", "01234567"), ("N3", "01234567"),
  ("N4", "01234567"), ("N5", "01234567"), ("N6", "01234567"), ("N7", "01234567"), ("N8", "01234567"),
  ("N9", "01234567"), ("O0", "0"), ("O1", "0123456789"), ("O2", "0123459"), ("O3", "012345689"),
  ("O4", "0123479"), ("O5", "01234567"), ("P0", "0"), ("P1", "012346789"), ("P2", "0123456789"),
  ("P3", "012345679"), ("P4", "0123456789"), ("P5", "0129"), ("Q0", "012"), ("Q1", "0123456789"),
  ("Q2", "0123456789"), ("Q3", "012345789"), ("Q4", "0123789"), ("Q5", "0123456789"), ("R0", "0"),
  ("R1", "0123459"), ("R2", "012389"), ("R3", "012389"), ("R4", "01289"), ("R5", "012389"), ("Y1", "0"),
  ("Y2", "0"), ("Y3", "0"), ("Y4", "0"), ("Y5", "0"), ("Y6", "0"), ("Y7", "0"), ("Y8", "0"), ("Y9", "012"),
  ("Z0", "0"), ("Z1", "012389"), ("Z2", "012389"), ("Z3", "012389")]

/-- the codes of a category -/
def jelBelow (x : String × String) : List Bytes := (bs x.2).map (fun d => bs x.1 ++ [d])

/-- the list is that of the codes with two digits, and after them the categories without `Z0` -/
theorem jelCodes_eq : jelCodes = jelTree.flatMap jelBelow ++
    jelTree.flatMap (fun x => if x.1 == "Z0" then [] else if x.1 == "P0" then [bs x.1, bs x.1] else [bs x.1]) := by
  decide +kernel

theorem mem_jelCodes (v : Bytes) : v ∈ jelCodes ↔
    ∃ x ∈ jelTree, (∃ d ∈ bs x.2, v = bs x.1 ++ [d]) ∨ (v = bs x.1 ∧ x.1 ≠ "Z0") := by
  rw [jelCodes_eq, List.mem_append, List.mem_flatMap, List.mem_flatMap]
  constructor
  · rintro (⟨x, hx, h⟩ | ⟨x, hx, h⟩)
    · obtain ⟨d, hd, rfl⟩ := List.mem_map.1 h
      exact ⟨x, hx, .inl ⟨d, hd, rfl⟩⟩
    · refine ⟨x, hx, .inr ?_⟩
      by_cases hz : x.1 = "Z0"
      · simp [hz] at h
      · by_cases hp : x.1 = "P0"
        · simp [hp] at h
          exact ⟨by rw [hp]; exact h, hz⟩
        · simp [hz, hp] at h
          exact ⟨h, hz⟩
  · rintro ⟨x, hx, ⟨d, hd, rfl⟩ | ⟨rfl, hz⟩⟩
    · exact .inl ⟨x, hx, List.mem_map.2 ⟨d, hd, rfl⟩⟩
    · refine .inr ⟨x, hx, ?_⟩
      by_cases hp : x.1 = "P0" <;> simp [hz, hp]

/-- the categories are a capital letter and a digit, and digits follow -/
theorem jelTree_form : jelTree.all (fun x =>
    (match bs x.1 with
      | [c, d] => decide (0x41 ≤ c ∧ c ≤ 0x5A) && decide (0x30 ≤ d ∧ d ≤ 0x39)
      | _ => false) && !(bs x.2).isEmpty && (bs x.2).all (fun d => decide (0x30 ≤ d ∧ d ≤ 0x39))) = true := by
  decide +kernel

theorem jelTree_last : jelTree.all (fun x => x.1 != "Z0" || x.2 == "0") = true := by decide +kernel

theorem jelTree_mem {x : String × String} (hx : x ∈ jelTree) :
    (∃ c d, bs x.1 = [c, d] ∧ (0x41 ≤ c ∧ c ≤ 0x5A) ∧ (0x30 ≤ d ∧ d ≤ 0x39)) ∧ bs x.2 ≠ [] ∧
      ∀ d ∈ bs x.2, 0x30 ≤ d ∧ d ≤ 0x39 := by
  have h := List.all_eq_true.1 jelTree_form x hx
  rw [Bool.and_eq_true, Bool.and_eq_true] at h
  obtain ⟨⟨h1, h2⟩, h3⟩ := h
  refine ⟨?_, fun e => by rw [e] at h2; simp at h2, fun d hd => by simpa using List.all_eq_true.1 h3 d hd⟩
  match hb : bs x.1, h1 with
  | [c, d], h1 =>
    rw [Bool.and_eq_true, decide_eq_true_eq, decide_eq_true_eq] at h1
    exact ⟨c, d, rfl, h1.1, h1.2⟩

/-- **C97** the list of `jelc`: letters with one or two digits; with a code of two digits its category is in
the list, except for `Z00`, and each category has a code of two digits. -/
theorem C97_jel_partial :
    (∀ v ∈ jelCodes, JelForm v) ∧
    (∀ v ∈ jelCodes, v.length = 3 → v = bs "Z00" ∨ v.take 2 ∈ jelCodes) ∧
    (∀ v ∈ jelCodes, v.length = 2 → ∃ d, v ++ [d] ∈ jelCodes) := by
  refine ⟨fun v hv => ?_, fun v hv hl => ?_, fun v hv hl => ?_⟩
  · obtain ⟨x, hx, h⟩ := (mem_jelCodes v).1 hv
    obtain ⟨⟨c, d, hb, hc, hd⟩, _, hs⟩ := jelTree_mem hx
    rcases h with ⟨e, he, rfl⟩ | ⟨rfl, _⟩
    · refine ⟨c, [d, e], by rw [hb]; rfl, hc.1, hc.2, .inr rfl, fun y hy => ?_⟩
      rcases List.mem_cons.1 hy with rfl | hy
      · exact hd
      · rw [List.mem_singleton.1 hy]; exact hs e he
    · refine ⟨c, [d], hb, hc.1, hc.2, .inl rfl, fun y hy => ?_⟩
      rw [List.mem_singleton.1 hy]; exact hd
  · obtain ⟨x, hx, h⟩ := (mem_jelCodes v).1 hv
    obtain ⟨⟨c, d, hb, hc, hd⟩, _, hs⟩ := jelTree_mem hx
    rcases h with ⟨e, he, rfl⟩ | ⟨rfl, _⟩
    · have ht : (bs x.1 ++ [e]).take 2 = bs x.1 := by rw [hb]; rfl
      by_cases hz : x.1 = "Z0"
      · have h0 := List.all_eq_true.1 jelTree_last x hx
        simp only [hz, bne_self_eq_false, Bool.false_or, beq_iff_eq] at h0
        have hb0 : bs "0" = [0x30] := by decide +kernel
        rw [h0, hb0, List.mem_singleton] at he
        rw [hz, he]
        exact .inl (by decide +kernel)
      · exact .inr (by rw [ht]; exact (mem_jelCodes _).2 ⟨x, hx, .inr ⟨rfl, hz⟩⟩)
    · rw [hb] at hl; simp at hl
  · obtain ⟨x, hx, h⟩ := (mem_jelCodes v).1 hv
    obtain ⟨⟨c, d, hb, hc, hd⟩, hne, hs⟩ := jelTree_mem hx
    rcases h with ⟨e, he, rfl⟩ | ⟨rfl, _⟩
    · rw [hb] at hl; simp at hl
    · obtain ⟨e, he⟩ := List.exists_mem_of_ne_nil _ hne
      exact ⟨e, (mem_jelCodes _).2 ⟨x, hx, .inl ⟨e, he, rfl⟩⟩⟩

/-- **C97** the category `Z0` is missing: it is reported although its code `Z00` is not. -/
theorem C97_jel_false (C : CheckEnv) (hl : IsLossy C.lossy) (E : Env) (o : Opts) (p : Path) (r : Record)
    (hv : p.values E o r = some [bs "Z0"]) :
    bs "Z00" ∈ jelCodes ∧ ∃ msg, (Checks.jel E o p).check C r = some (.jel E o p, true, msg) :=
  ⟨by decide +kernel, C42_nonempty C hl _ E o p _ .jel r _ hv (bs "Z0") (by simp) (by decide +kernel)
    (by decide +kernel)⟩

end Pica.Props

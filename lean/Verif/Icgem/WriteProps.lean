import Verif.Icgem.WriteSpec
import Verif.Icgem.LoadProps
import Verif.Variational.GravityProps

/-! C150: reader and script invert the writer. -/
namespace Verif.Icgem.Write

open Verif.Rinex Verif.Text
open Verif.Script.Gfc (Mant Expo Break gfcLine ReadsC Digits Sign classify_gfcLine takeWhile_break break_blanks convert convert_file IsEnd)
open Verif.Script.Bulletin (dec strip dec_digits dec_ne dec_length)
open Verif.Harmonic (addrC addrS Name addr)

variable {strtod : Strtod} {val : List Char → List Char → ℚ}

/-! ### Numbers -/

theorem digit_plain {c : Char} (h : isDigit c = true) : isSpace c = false ∧ c ≠ '\x00' := by
  constructor
  · cases hs : isSpace c with
    | false => rfl
    | true =>
      rw [(Verif.Script.Gfc.space_not_digit hs).1] at h
      cases h
  · rintro rfl; revert h; decide

theorem sign_plain {sg : List Char} (h : Sign sg) : ∀ c ∈ sg, isSpace c = false ∧ c ≠ '\x00' := by
  rcases h with rfl | rfl | rfl <;> decide

theorem num_plain {a : Num} (h : a.Ok) : ∀ c ∈ a.text 'e', isSpace c = false ∧ c ≠ '\x00' := by
  obtain ⟨⟨sg, x, y, hm, h1, h2, h3⟩, ⟨sg', e, hx, h4, h5⟩⟩ := h
  intro c hc
  rw [Num.text, hm, hx] at hc
  simp only [List.mem_append, List.mem_cons] at hc
  rcases hc with (hc | hc | rfl | hc) | rfl | hc | hc
  · exact sign_plain h1 c hc
  · exact digit_plain (h2 c hc)
  · decide
  · exact digit_plain (h3.2 c hc)
  · decide
  · exact sign_plain h4 c hc
  · exact digit_plain (h5.2 c hc)

theorem num_ne {a : Num} : a.text 'e' ≠ [] := by simp [Num.text]

theorem num_read (hr : ReadsC strtod val) {a : Num} (h : a.Ok) : strtod (a.text 'e') = some (val a.m a.x, []) := by
  have := hr a.m a.x 0 [] h.1 h.2 (by intro c hc; simp at hc)
  simpa [Num.text] using this

theorem plain_blank {t : List Char} (h : ∀ c ∈ t, isSpace c = false ∧ c ≠ '\x00') : ' ' ∉ t ∧ '\x00' ∉ t :=
  ⟨fun hm => by have := (h _ hm).1; revert this; decide, fun hm => (h _ hm).2 rfl⟩

theorem plain_head {t : List Char} (h : ∀ c ∈ t, isSpace c = false ∧ c ≠ '\x00') : t.head? ≠ some ' ' :=
  fun he => (plain_blank h).1 (List.mem_of_mem_head? he)

theorem dec_plain (n : Nat) : ∀ c ∈ dec n, isSpace c = false ∧ c ≠ '\x00' := fun c hc => digit_plain (dec_digits n c hc)

/-! ### Header -/

theorem key_ok (k : Key) (arg : List Char) (hp : ∀ c ∈ arg, isSpace c = false ∧ c ≠ '\x00') (hl : arg.length ≤ 200)
    (ha : ArgOk strtod k arg) : (Ent.key 0 k 0 arg).Ok strtod := by
  refine ⟨?_, ?_, ha⟩
  · have : k.name.length ≤ 22 := by cases k <;> decide
    simp only [Ent.text, List.length_append, List.length_replicate]
    omega
  · have : '\x00' ∉ k.name := k.name_nul
    simp [Ent.text, this, (plain_blank hp).2]

theorem norm_plain (g : Gfc) : ∀ c ∈ g.normText, isSpace c = false ∧ c ≠ '\x00' := by
  unfold Gfc.normText
  split <;> decide

theorem degree_read (g : Gfc) (hg : g.Ok val) : strtol (dec g.degree) = some ⟨g.degree, [], false⟩ := by
  have := Verif.Script.Gfc.strtol_dec 0 g.degree hg.degree.2 [] (by intro c hc; simp at hc)
  simpa using this

theorem rest_ok (hr : ReadsC strtod val) (g : Gfc) (hg : g.Ok val) : ∀ e ∈ g.rest, e.Ok strtod := by
  intro e he
  simp only [Gfc.rest, List.mem_cons, List.not_mem_nil, or_false] at he
  rcases he with rfl | rfl | rfl | rfl | rfl | rfl | rfl
  · exact key_ok _ _ (by decide) (by decide) (by refine ⟨?_, ?_⟩ <;> decide)
  · have := hg.name
    exact key_ok _ _ this.2.2 (by have := this.2.1; omega)
      ⟨(plain_blank this.2.2).1, by show _ < 128; have := this.2.1; omega⟩
  · have hp := num_plain hg.gm.1
    exact key_ok _ _ hp (by have := hg.gm.2.1; omega) ⟨plain_head hp, _, _, num_read hr hg.gm.1, hg.gm.2.2⟩
  · have hp := num_plain hg.re.1
    exact key_ok _ _ hp (by have := hg.re.2.1; omega) ⟨plain_head hp, _, _, num_read hr hg.re.1, hg.re.2.2⟩
  · have hp := dec_plain g.degree
    have hl := (dec_length g.degree 10 (by decide) (by have := hg.degree.2; omega)).2
    refine key_ok _ _ hp (by omega) ⟨plain_head hp, _, degree_read g hg, ?_⟩
    show toInt32 (g.degree : Int) ≠ 0
    rw [Verif.Script.Gfc.toInt32_small _ hg.degree.2]
    have := hg.degree.1
    omega
  · exact key_ok _ _ (by decide) (by decide) (by refine ⟨?_, ?_⟩ <;> decide)
  · exact key_ok _ _ (by decide) (by decide) (by refine ⟨?_, ?_⟩ <;> decide)

theorem ents_ok (hr : ReadsC strtod val) (g : Gfc) (hg : g.Ok val) : ∀ e ∈ g.ents, e.Ok strtod := by
  intro e he
  rcases List.mem_cons.1 he with rfl | he
  · refine key_ok _ _ (norm_plain g) ?_ ⟨(plain_blank (norm_plain g)).1, ?_⟩
    · unfold Gfc.normText; split <;> decide
    · show _ < 64
      unfold Gfc.normText; split <;> decide
  · exact rest_ok hr g hg e he

/-- The header of a written file is a good one. -/
theorem header_good (hr : ReadsC strtod val) (g : Gfc) (hg : g.Ok val) : GoodHeader strtod g.ents fin :=
  ⟨by simp [Gfc.ents, Gfc.rest], ents_ok hr g hg, by decide, by decide, by decide⟩

theorem header_says (hr : ReadsC strtod val) (g : Gfc) (hg : g.Ok val) :
    HeaderSays strtod g.ents (val g.gm.m g.gm.x) (val g.re.m g.re.x) g.degree := by
  refine ⟨?_, ?_, ?_⟩
  · show Option.bind (some (g.gm.text 'e')) _ = _
    rw [Option.bind_some, num_read hr hg.gm.1]
    rfl
  · show Option.bind (some (g.re.text 'e')) _ = _
    rw [Option.bind_some, num_read hr hg.re.1]
    rfl
  · show Option.bind (some (dec g.degree)) _ = _
    rw [Option.bind_some, degree_read g hg]
    show some (toInt32 (g.degree : Int)) = _
    rw [Verif.Script.Gfc.toInt32_small _ hg.degree.2]

theorem header_norm (g : Gfc) : Norm g.ents ↔ g.normalized = true := by
  have e : lastArg .norm g.ents = some g.normText := rfl
  unfold Norm
  rw [e]
  unfold Gfc.normText
  cases g.normalized
  · simp only [Bool.false_eq_true, if_false, iff_false]
    decide
  · simp

/-! ### Data section -/

/-- What a line of the data section means. -/
def Coef.item (val : List Char → List Char → ℚ) (q : Coef) : Item :=
  .coeff q.n q.k (some (val q.c.m q.c.x, val q.s.m q.s.x))

theorem coef_classify (hr : ReadsC strtod val) (q : Coef) (hq : q.Ok val) (hn : q.n < 2 ^ 31) (hk : q.k < 2 ^ 31) :
    classify strtod (q.text 'e') = q.item val := by
  unfold Coef.text Coef.item
  rw [classify_gfcLine strtod _ _ _ _ _ _ _ _ _ _ 'e' 'e' _ hq.c.1 hq.c.2 hq.s.1 hq.s.2 (by decide) (by decide) hn hk]
  unfold twoDoubles
  rw [hr _ _ _ _ hq.c.1 hq.c.2 (break_blanks _ _)]
  simp only
  rw [hr _ _ _ _ hq.s.1 hq.s.2 (takeWhile_break hq.tail)]

theorem coef_small (g : Gfc) (hg : g.Ok val) (q : Coef) (hq : q ∈ g.coefs) :
    q.k ≤ q.n ∧ q.n ≤ g.degree ∧ q.n < 2 ^ 31 ∧ q.k < 2 ^ 31 := by
  have h := (hg.all q.n q.k).1 ⟨q, hq, rfl, rfl⟩
  have := hg.degree.2
  omega

theorem items_lines (hr : ReadsC strtod val) (qs : List Coef)
    (h : ∀ q ∈ qs, q.Ok val ∧ q.n < 2 ^ 31 ∧ q.k < 2 ^ 31) (last : List Line) :
    items strtod ((qs.map fun q => (⟨q.text 'e', true⟩ : Line)) ++ last) = qs.map (Coef.item val) ++ items strtod last := by
  induction qs with
  | nil => rfl
  | cons q qs ih =>
    have hq := h q List.mem_cons_self
    rw [List.map_cons, List.cons_append, items]
    rw [if_neg (by have := hq.1.len; simp only [not_or]; exact ⟨by omega, by simp⟩),
      coef_classify hr q hq.1 hq.2.1 hq.2.2, ih fun p hp => h p (List.mem_cons_of_mem _ hp)]
    rfl

/-- The reader sees the lines of the writer. -/
theorem written_items (hr : ReadsC strtod val) (g : Gfc) (hg : g.Ok val) :
    items strtod (g.data 'e') = g.coefs.map (Coef.item val) := by
  have := items_lines hr g.coefs (fun q hq => ⟨hg.coefs q hq, (coef_small g hg q hq).2.2⟩) []
  simpa [Gfc.data, items] using this

theorem keys_eq (qs : List Coef) (l m : Nat) : (qs.map (Coef.item val)).filterMap (key l m) =
    (qs.map fun q => (q.n, q.k)).filterMap fun p =>
      if (p.1 : Int) ≤ l ∧ (p.2 : Int) ≤ m then some ((p.1 : Int), (p.2 : Int)) else none := by
  induction qs with
  | nil => rfl
  | cons q qs ih =>
    rw [List.map_cons, List.map_cons, List.filterMap_cons, List.filterMap_cons, ih]
    rfl

theorem written_proper (g : Gfc) (hg : g.Ok val) (l m : Nat) : Proper l m (g.coefs.map (Coef.item val)) := by
  constructor
  · intro ll mm v hv h1 h2
    obtain ⟨q, hq, he⟩ := List.mem_map.1 hv
    simp only [Coef.item, Item.coeff.injEq] at he
    have := coef_small g hg q hq
    omega
  · rw [keys_eq]
    refine List.Nodup.filterMap ?_ hg.once
    intro a b c ha hb
    rw [Option.mem_def] at ha hb
    split at ha
    · split at hb
      · cases ha
        have := Option.some.inj hb
        simp only [Prod.mk.injEq, Int.natCast_inj] at this
        exact Prod.ext this.1.symm this.2.symm
      · cases hb
    · cases ha

theorem written_readable (g : Gfc) (hg : g.Ok val) (l m : Nat) : Readable l m (g.coefs.map (Coef.item val)) := by
  constructor
  · intro h
    obtain ⟨q, -, he⟩ := List.mem_map.1 h
    cases he
  · intro ll mm v hv h1 h2
    obtain ⟨q, hq, he⟩ := List.mem_map.1 hv
    simp only [Coef.item, Item.coeff.injEq] at he
    refine ⟨_, _, he.2.2.symm, fun h0 => (hg.coefs q hq).sine ?_⟩
    omega

theorem written_complete (g : Gfc) (hg : g.Ok val) (l m : Nat) (hl : l ≤ g.degree) :
    Complete l m (g.coefs.map (Coef.item val)) := by
  intro n k hn hk hm
  obtain ⟨q, hq, rfl, rfl⟩ := (hg.all n k).2 ⟨hk, by omega⟩
  exact ⟨_, _, List.mem_map.2 ⟨q, hq, rfl⟩⟩

/-- A pair is given by one line alone. -/
theorem written_given (g : Gfc) (hg : g.Ok val) (q : Coef) (hq : q ∈ g.coefs) (x s : ℚ)
    (h : Given (g.coefs.map (Coef.item val)) q.n q.k x s) : x = val q.c.m q.c.x ∧ s = val q.s.m q.s.x := by
  obtain ⟨p, hp, he⟩ := List.mem_map.1 h
  simp only [Coef.item, Item.coeff.injEq, Option.some.injEq, Prod.mk.injEq, Int.natCast_inj] at he
  have : p = q := List.inj_on_of_nodup_map hg.once hp hq (Prod.ext he.1 he.2.1)
  subst this
  exact ⟨he.2.2.1.symm, he.2.2.2.symm⟩

/-! ### C150 -/

/-- The table `c` of degree `l` holds the coefficients of the model up to degree `l` and order `m`, multiplied by the
normalisation factors if `f`. -/
def Holds (val : List Char → List Char → ℚ) (g : Gfc) (l m : Nat) (f : Bool) (c : Harmonic.Coeffs) : Prop :=
  ∀ q ∈ g.coefs, q.n ≤ l → q.k ≤ m →
    c.data (addrC l q.n q.k) = val q.c.m q.c.x * factor f q.n q.k ∧
      (1 ≤ q.k → c.data (addrS l q.n q.k) = val q.s.m q.s.x * factor f q.n q.k)

/-- **C150** A written file is loaded for any degree and order (at least 1) up to those of the model: constants, degree,
normalisation and all coefficients asked for are those written. -/
theorem load_written (hr : ReadsC strtod val) (g : Gfc) (hg : g.Ok val) (b : Buf) (l m : Nat) (denorm : Bool) (t : Table)
    (hm : 1 ≤ m) (hml : m ≤ l) (hl : l ≤ g.degree) :
    ∃ c, loadModel strtod (some g.lines) b l m denorm t = .ok (val g.gm.m g.gm.x) (val g.re.m g.re.x) c ∧ c.degree = l ∧
      c.normalized = (g.normalized && !denorm) ∧ Holds val g l m (g.normalized && denorm) c := by
  have hit := written_items hr g hg
  obtain ⟨c, norm, h1, h2, h3, h4, h5⟩ := load_complete_partial strtod g.ents fin (g.data 'e') b l m g.degree denorm t _ _
    (header_good hr g hg) (header_says hr g hg) (by omega) hl hm hml (by rw [hit]; exact written_proper g hg l m)
    (by rw [hit]; exact written_readable g hg l m) (by rw [hit]; exact written_complete g hg l m hl)
  have hn : norm = g.normalized := by
    rw [header_norm] at h1
    cases norm <;> cases h : g.normalized <;> simp_all
  subst hn
  refine ⟨c, h2, h3, h4, ?_⟩
  intro q hq hqn hqm
  obtain ⟨x, s, hgiv, h6, h7⟩ := h5 q.n q.k hqn (coef_small g hg q hq).1 hqm
  rw [hit] at hgiv
  obtain ⟨rfl, rfl⟩ := written_given g hg q hq x s hgiv
  exact ⟨h6, h7⟩

open Verif.Variational Verif.Astro Verif.Forces Verif.Gravity in
/-- **C150** From a written file to accelerations: any number of evaluations give the gradients of the potential with the
constants and coefficients written. -/
theorem gravity_written (hr : ReadsC strtod val) (g : Gfc) (hg : g.Ok val) (b : Buf) (l m : Nat) (t : Table)
    (hm : 1 ≤ m) (hml : m ≤ l) (hl : l ≤ g.degree) (X Y : Nat → Nat → ℝ)
    (hXY : ∀ q ∈ g.coefs, X q.n q.k = val q.c.m q.c.x * factor g.normalized q.n q.k ∧
      Y q.n q.k = val q.s.m q.s.x * factor g.normalized q.n q.k) (memV memW : Nat → ℝ) :
    ∃ c p, loadModel strtod (some g.lines) b l m true t = .ok (val g.gm.m g.gm.x) (val g.re.m g.re.x) c ∧
      construct l m ⟨val g.gm.m g.gm.x, val g.re.m g.re.x, c⟩ memV memW = some p ∧
      ∀ qs : List Call, (∀ q ∈ qs, q.Ok) → ∃ as p', evaluations p qs = some (as, p') ∧
        List.Forall₂ (fun q a => Gradient (fun x => geopotential l m (val g.gm.m g.gm.x) (val g.re.m g.re.x) X Y
          (rcel2ter x q.rc2i q.era q.rpom)) a q.r) qs as := by
  have hit := written_items hr g hg
  refine gravity_from_file_partial strtod g.ents fin (g.data 'e') b l m g.degree t _ _
    (header_good hr g hg) (header_says hr g hg) (by omega) hl hm hml (by rw [hit]; exact written_proper g hg l m)
    (by rw [hit]; exact written_readable g hg l m) (by rw [hit]; exact written_complete g hg l m hl) hg.re.2.2 X Y ?_ memV memW
  intro n k hn hk hkm x s hgiv
  obtain ⟨q, hq, rfl, rfl⟩ := (hg.all n k).2 ⟨hk, by omega⟩
  rw [hit] at hgiv
  obtain ⟨rfl, rfl⟩ := written_given g hg q hq x s hgiv
  have hd : @decide (Norm g.ents) (Classical.propDecidable _) = g.normalized := by
    rw [Bool.eq_iff_iff, ← header_norm]
    exact @decide_eq_true_iff _ (Classical.propDecidable _)
  have := hXY q hq
  rw [← hd] at this
  exact ⟨this.1, fun _ => this.2⟩

/-! ### The script -/

theorem strip_newline (a : Char) (t : List Char) (ha : isSpace a = false)
    (hz : ∀ z, (a :: t).getLast? = some z → isSpace z = false) : strip (a :: t ++ ['\n']) = a :: t := by
  unfold strip
  rw [List.cons_append, List.dropWhile_cons_of_neg (by simp [ha]), ← List.cons_append, List.reverse_append,
    List.reverse_singleton, List.singleton_append, List.dropWhile_cons_of_pos (by decide)]
  cases e : (a :: t).reverse with
  | nil => simp at e
  | cons z u =>
    have : (a :: t).getLast? = some z := by rw [← List.head?_reverse, e]; rfl
    rw [List.dropWhile_cons_of_neg (by simp [hz z this]), ← e, List.reverse_reverse]

theorem key_strip (k : Key) (arg : List Char) (hne : arg ≠ []) (hp : ∀ c ∈ arg, isSpace c = false ∧ c ≠ '\x00') :
    strip ((Ent.key 0 k 0 arg).text ++ ['\n']) = (Ent.key 0 k 0 arg).text ∧
      ¬ IsEnd ((Ent.key 0 k 0 arg).text ++ ['\n']) := by
  obtain ⟨a, t, hk, ha, hend⟩ : ∃ a t, k.name = a :: t ∧ isSpace a = false ∧
      ¬ "end".toList.isPrefixOf (a :: t) ∧ 3 ≤ (a :: t).length := by
    cases k
    · exact ⟨'p', "roduct_type".toList, by decide, by decide, by decide, by decide⟩
    · exact ⟨'m', "odelname".toList, by decide, by decide, by decide, by decide⟩
    · exact ⟨'e', "arth_gravity_constant".toList, by decide, by decide, by decide, by decide⟩
    · exact ⟨'r', "adius".toList, by decide, by decide, by decide, by decide⟩
    · exact ⟨'m', "ax_degree".toList, by decide, by decide, by decide, by decide⟩
    · exact ⟨'e', "rrors".toList, by decide, by decide, by decide, by decide⟩
    · exact ⟨'t', "ide_system".toList, by decide, by decide, by decide, by decide⟩
    · exact ⟨'n', "orm".toList, by decide, by decide, by decide, by decide⟩
  have e : (Ent.key 0 k 0 arg).text = a :: (t ++ ' ' :: arg) := by simp [Ent.text, hk]
  rw [e]
  constructor
  · apply strip_newline _ _ ha
    intro z hz
    rw [show a :: (t ++ ' ' :: arg) = (a :: (t ++ [' '])) ++ arg by simp, List.getLast?_append_of_ne_nil _ hne] at hz
    exact (hp z (List.mem_of_getLast? hz)).1
  · rintro ⟨u, hu⟩
    rw [List.cons_append, List.dropWhile_cons_of_neg (by simp [ha])] at hu
    apply hend.1
    rw [List.isPrefixOf_iff_prefix]
    have h1 : "end".toList <+: a :: (t ++ ' ' :: arg ++ ['\n']) := by
      rw [hu]
      exact ⟨"_of_head".toList ++ u, by rw [← List.append_assoc]; rfl⟩
    have h2 : a :: t <+: a :: (t ++ ' ' :: arg ++ ['\n']) := ⟨' ' :: arg ++ ['\n'], by simp⟩
    exact List.prefix_of_prefix_length_le h1 h2 hend.2

theorem ents_strip (g : Gfc) (hg : g.Ok val) : ∀ e ∈ g.ents, strip (e.text ++ ['\n']) = e.text ∧ ¬ IsEnd (e.text ++ ['\n']) := by
  intro e he
  simp only [Gfc.ents, Gfc.rest, List.mem_cons, List.not_mem_nil, or_false] at he
  rcases he with rfl | rfl | rfl | rfl | rfl | rfl | rfl | rfl
  · exact key_strip _ _ (by unfold Gfc.normText; split <;> decide) (norm_plain g)
  · exact key_strip _ _ (by decide) (by decide)
  · exact key_strip _ _ hg.name.1 hg.name.2.2
  · exact key_strip _ _ num_ne (num_plain hg.gm.1)
  · exact key_strip _ _ num_ne (num_plain hg.re.1)
  · exact key_strip _ _ (dec_ne _) (dec_plain _)
  · exact key_strip _ _ (by decide) (by decide)
  · exact key_strip _ _ (by decide) (by decide)

open Verif.Script.Gfc (sub sub_gfcLine strip_gfcLine sub_space sub_chars) in
/-- A line of coefficients after the conversion: the same but for the further columns. -/
theorem coef_converted (q : Coef) (hq : q.Ok val) (hlen : (q.text 'e').length ≤ 510) :
    ∃ tail, strip (sub (q.text 'D' ++ ['\n'])) = ({ q with tail := tail }).text 'e' ∧ ({ q with tail := tail }).Ok val := by
  have hb : Break (q.tail ++ ['\n']) := by
    intro c hc
    cases e : q.tail with
    | nil => rw [e] at hc; simp at hc; rw [← hc]; decide
    | cons y u =>
      have := hq.tail y (by rw [e]; rfl)
      rw [e] at hc
      simp at hc
      rw [← hc]; exact this
  have hb' : Break (sub (q.tail ++ ['\n'])) := by
    cases e : q.tail ++ ['\n'] with
    | nil => simp at e
    | cons y u =>
      have := hb y (by rw [e]; rfl)
      rw [sub_space y u this]
      intro c hc
      simp at hc
      rw [← hc]; exact this
  have e1 : q.text 'D' ++ ['\n'] = gfcLine q.g1 q.g2 q.g3 q.g4 q.n q.k q.c.m q.c.x q.s.m q.s.x 'D' 'D' (q.tail ++ ['\n']) := by
    simp [Coef.text, gfcLine]
  obtain ⟨tail', h1, h2⟩ := strip_gfcLine 0 q.g1 q.g2 q.g3 q.g4 q.n q.k q.c.m q.c.x q.s.m q.s.x 'e' 'e'
    (sub (q.tail ++ ['\n'])) hq.s.2
  rw [List.replicate_zero, List.nil_append] at h1
  refine ⟨tail', ?_, ⟨hq.c, hq.s, Verif.Script.Gfc.break_prefix h2 hb', ?_, hq.sine⟩⟩
  · rw [e1, sub_gfcLine _ _ _ _ _ _ _ _ _ _ 'D' 'D' _ hq.c.1 hq.c.2 hq.s.1 hq.s.2 (.inl rfl) (.inl rfl) hb, h1]
    rfl
  · have h3 := h2.length_le
    have h4 := (sub_chars (q.tail ++ ['\n'])).length_eq
    rw [← h4] at h3
    simp only [Coef.text, gfcLine, List.length_append, List.length_cons, List.length_nil] at hlen h3 ⊢
    omega

/-- The model with other further columns. -/
def Gfc.with (g : Gfc) (f : Coef → List Char) : Gfc := { g with coefs := g.coefs.map fun q => { q with tail := f q } }

theorem with_ok (g : Gfc) (hg : g.Ok val) (f : Coef → List Char) (hf : ∀ q ∈ g.coefs, ({ q with tail := f q }).Ok val) :
    (g.with f).Ok val := by
  refine ⟨hg.name, hg.gm, hg.re, hg.degree, ?_, ?_, ?_⟩
  · intro q hq
    obtain ⟨p, hp, rfl⟩ := List.mem_map.1 hq
    exact hf p hp
  · have : ((g.with f).coefs.map fun q => (q.n, q.k)) = g.coefs.map fun q => (q.n, q.k) := by
      simp [Gfc.with, Function.comp_def]
    rw [this]; exact hg.once
  · intro n k
    rw [show (g.with f).degree = g.degree from rfl, ← hg.all n k]
    constructor
    · rintro ⟨q, hq, h1, h2⟩
      obtain ⟨p, hp, rfl⟩ := List.mem_map.1 hq
      exact ⟨p, hp, h1, h2⟩
    · rintro ⟨p, hp, h1, h2⟩
      exact ⟨_, List.mem_map.2 ⟨p, hp, rfl⟩, h1, h2⟩

/-- **C150** A file with coefficients in Fortran notation, converted by the script and then loaded: constants, degree,
normalisation and coefficients are those written. -/
theorem load_converted (hr : ReadsC strtod val) (g : Gfc) (hg : g.Ok val) (h510 : ∀ q ∈ g.coefs, (q.text 'e').length ≤ 510)
    (turns : Nat) (ht : 8 < turns) (b : Buf) (l m : Nat) (denorm : Bool) (t : Table)
    (hm : 1 ≤ m) (hml : m ≤ l) (hl : l ≤ g.degree) :
    ∃ out c, convert turns g.fortran = some out ∧
      loadModel strtod (some (out.map fun x => ⟨x, true⟩)) b l m denorm t = .ok (val g.gm.m g.gm.x) (val g.re.m g.re.x) c ∧
      c.degree = l ∧ c.normalized = (g.normalized && !denorm) ∧ Holds val g l m (g.normalized && denorm) c := by
  have hfin : IsEnd (fin ++ ['\n']) := ⟨" ======\n".toList, by decide⟩
  have hconv := convert_file (g.ents.map fun e => e.text ++ ['\n']) (fin ++ ['\n']) (g.coefs.map fun q => q.text 'D' ++ ['\n'])
    (fun x hx => by
      obtain ⟨e, he, rfl⟩ := List.mem_map.1 hx
      exact (ents_strip g hg e he).2) hfin turns (by simpa [Gfc.ents, Gfc.rest] using ht)
  have hex : ∀ q, ∃ tail, q ∈ g.coefs → strip (Verif.Script.Gfc.sub (q.text 'D' ++ ['\n'])) =
      ({ q with tail := tail }).text 'e' ∧ ({ q with tail := tail }).Ok val := by
    intro q
    by_cases hq : q ∈ g.coefs
    · obtain ⟨tail, h1, h2⟩ := coef_converted q (hg.coefs q hq) (h510 q hq)
      exact ⟨tail, fun _ => ⟨h1, h2⟩⟩
    · exact ⟨[], fun h => absurd h hq⟩
  choose f hf using hex
  have hw := with_ok g hg f (fun q hq => (hf q hq).2)
  obtain ⟨c, h1, h2, h3, h4⟩ := load_written hr (g.with f) hw b l m denorm t hm hml hl
  refine ⟨_, c, hconv, ?_, h2, h3, ?_⟩
  · refine Eq.trans ?_ h1
    congr 2
    unfold Gfc.lines
    rw [List.map_append, List.map_cons]
    congr 1
    · rw [List.map_map, List.map_map]
      apply List.map_congr_left
      intro e he
      show (⟨strip (e.text ++ ['\n']), true⟩ : Line) = _
      rw [(ents_strip g hg e he).1]
      rfl
    · rw [show strip (fin ++ ['\n']) = fin by decide +kernel]
      congr 1
      unfold Gfc.data Gfc.with
      rw [List.map_map, List.map_map, List.map_map]
      apply List.map_congr_left
      intro q hq
      show (⟨strip (Verif.Script.Gfc.sub (q.text 'D' ++ ['\n'])), true⟩ : Line) = _
      rw [(hf q hq).1]
      rfl
  · intro q hq
    exact h4 { q with tail := f q } (List.mem_map.2 ⟨q, hq, rfl⟩)

/-! ### What is not read back -/

theorem run_items (N l m : Nat) (hlN : l ≤ N) : ∀ (is : List Item) (read : Nat) (t : Table),
    (∀ i ∈ is, ∃ (n k : Nat) (c s : ℚ), i = .coeff n k (some (c, s)) ∧ k ≤ n ∧ (k = 0 → s = 0)) →
    read + (is.filterMap (key l m)).length < coeffsNr l m →
    ∃ t', run N l m is read t = run N l m [] (read + (is.filterMap (key l m)).length) t' := by
  intro is
  induction is with
  | nil => intro read t _ _; exact ⟨t, rfl⟩
  | cons i is ih =>
    intro read t hi hlt
    obtain ⟨n, k, c, s, rfl, hk, hs⟩ := hi i List.mem_cons_self
    have hi' := fun j hj => hi j (List.mem_cons_of_mem _ hj)
    by_cases hu : (n : Int) ≤ l ∧ (k : Int) ≤ m
    · have hkey : key l m (.coeff n k (some (c, s))) = some ((n : Int), (k : Int)) := by simp only [key]; rw [if_pos hu]
      rw [List.filterMap_cons, hkey] at hlt ⊢
      simp only [List.length_cons] at hlt ⊢
      obtain ⟨t1, ha⟩ : ∃ t1, assign N t n k c s = some t1 := ⟨_, assign_eq N n k t c s (by omega) hk⟩
      have hrun : run N l m (.coeff n k (some (c, s)) :: is) read t = run N l m is (read + 1) t1 := by
        conv_lhs => rw [run]
        rw [if_pos (by omega), if_pos hu]
        simp only [ha]
        rw [if_neg]
        rintro ⟨h0, h1⟩
        exact h1 (hs (by omega))
      obtain ⟨t', h⟩ := ih (read + 1) t1 hi' (by omega)
      exact ⟨t', by rw [hrun, h]; congr 1; omega⟩
    · have hkey : key l m (.coeff n k (some (c, s))) = none := by simp only [key]; rw [if_neg hu]
      rw [List.filterMap_cons, hkey] at hlt ⊢
      have hrun : run N l m (.coeff n k (some (c, s)) :: is) read t = run N l m is read t := by
        conv_lhs => rw [run]
        rw [if_pos (by omega), if_neg hu]
      obtain ⟨t', h⟩ := ih read t hi' (by simpa using hlt)
      exact ⟨t', by rw [hrun, h]⟩

theorem keys_length (g : Gfc) (hg : g.Ok val) (l m : Nat) (hl : l ≤ g.degree) :
    ((g.coefs.map (Coef.item val)).filterMap (key l m)).length = coeffsNr l m := by
  rw [coeffsNr_eq]
  have hp : ((g.coefs.map (Coef.item val)).filterMap (key l m)).Perm
      ((pairs l m).map fun p => ((p.1 : Int), (p.2 : Int))) := by
    rw [List.perm_ext_iff_of_nodup (written_proper g hg l m).once]
    · rintro ⟨a, b⟩
      rw [List.mem_map]
      constructor
      · intro h
        obtain ⟨i, hi, hk⟩ := List.mem_filterMap.1 h
        obtain ⟨q, hq, rfl⟩ := List.mem_map.1 hi
        simp only [Coef.item, key] at hk
        split at hk
        · rename_i hc
          simp only [Option.some.injEq, Prod.mk.injEq] at hk
          have := coef_small g hg q hq
          exact ⟨(q.n, q.k), (mem_pairs l m q.n q.k).2 ⟨by omega, this.1, by omega⟩, by rw [← hk.1, ← hk.2]⟩
        · cases hk
      · rintro ⟨⟨n, k⟩, hnk, he⟩
        obtain ⟨h1, h2, h3⟩ := (mem_pairs l m n k).1 hnk
        obtain ⟨q, hq, rfl, rfl⟩ := (hg.all n k).2 ⟨h2, by omega⟩
        rw [← he]
        exact List.mem_filterMap.2 ⟨_, List.mem_map.2 ⟨q, hq, rfl⟩, by simp only [Coef.item, key]; rw [if_pos (by omega)]⟩
    · refine List.Nodup.map ?_ (pairs_nodup l m)
      rintro ⟨a, b⟩ ⟨c, d⟩ h
      simp only [Prod.mk.injEq, Int.natCast_inj] at h
      exact Prod.ext h.1 h.2
  rw [hp.length_eq, List.length_map]

/-- The file without the newline character behind its last line. -/
def Gfc.cut (g : Gfc) (qs : List Coef) (q : Coef) : List Line :=
  fileOf g.ents fin ((qs.map fun q => ⟨q.text 'e', true⟩) ++ [⟨q.text 'e', false⟩])

/-- **C150 is false without a newline at the end**: whenever the coefficients of the last line are asked for the file is
refused, as the loop ends when the end of the file is reached, with the line already in the buffer. -/
theorem no_newline_counterexample (hr : ReadsC strtod val) (g : Gfc) (hg : g.Ok val) (qs : List Coef) (q : Coef)
    (hc : g.coefs = qs ++ [q]) (b : Buf) (l m : Nat) (denorm : Bool) (t : Table) (hl1 : 1 ≤ l) (hml : m ≤ l)
    (hl : l ≤ g.degree) (hqn : q.n ≤ l) (hqm : q.k ≤ m) :
    loadModel strtod (some (g.cut qs q)) b l m denorm t = .failed := by
  have hh := header_good hr g hg
  have hit : items strtod ((qs.map fun q => (⟨q.text 'e', true⟩ : Line)) ++ [⟨q.text 'e', false⟩]) =
      qs.map (Coef.item val) := by
    rw [items_lines hr qs (fun p hp => by
      have hp' : p ∈ g.coefs := by rw [hc]; exact List.mem_append_left _ hp
      exact ⟨hg.coefs p hp', (coef_small g hg p hp').2.2⟩)]
    simp [items]
  have hlen := keys_length g hg l m hl
  rw [hc, List.map_append, List.filterMap_append, List.length_append] at hlen
  have hk : (([q].map (Coef.item val)).filterMap (key l m)).length = 1 := by
    simp only [List.map_cons, List.map_nil, Coef.item, List.filterMap_cons, List.filterMap_nil, key]
    rw [if_pos (by omega)]
    rfl
  rw [hk] at hlen
  obtain ⟨h, h1, h2⟩ := header_members_partial strtod g.ents fin ((qs.map fun q => (⟨q.text 'e', true⟩ : Line)) ++
    [⟨q.text 'e', false⟩]) b hh.len hh.ok hh.finEnd hh.finLen hh.finNul
  unfold loadModel Gfc.cut fileOf
  rw [h1]
  simp only [ne_eq, not_true_eq_false, if_false]
  split
  · rfl
  · rename_i hdeg
    simp only [Option.map_some, dataLines, Stream.open, Stream.good, Bool.not_false, Bool.and_self, if_true]
    have hD : ¬ ((l : Int) > h.maxDegree ∨ m > l ∨ l < l) := by omega
    unfold parseData
    rw [if_neg hD]
    simp only
    rw [if_neg (by omega), hit]
    obtain ⟨t', hrun⟩ := run_items l l m le_rfl (qs.map (Coef.item val)) 0
      ((t.set (Harmonic.addrC l 1 0) (-999)).set (Harmonic.addrC l 1 1) (-999)) (fun i hi => by
        obtain ⟨p, hp, rfl⟩ := List.mem_map.1 hi
        have hp' : p ∈ g.coefs := by rw [hc]; exact List.mem_append_left _ hp
        exact ⟨_, _, _, _, rfl, (coef_small g hg p hp').1, (hg.coefs p hp').sine⟩) (by omega)
    rw [hrun, run, if_pos (by omega)]
    rw [if_neg (by omega)]
    rfl

/-- The file with blanks behind the line on the normalisation. -/
def Gfc.blanksAfterNorm (g : Gfc) (j : Nat) : List Line :=
  ⟨"norm fully_normalized".toList ++ List.replicate (j + 1) ' ', true⟩ :: (g.rest.map Ent.line ++ ⟨fin, true⟩ :: g.data 'e')

def blankArg (j : Nat) : List Char := "fully_normalized".toList ++ List.replicate (j + 1) ' '

theorem blankArg_take (j : Nat) : (blankArg j).takeWhile (· != ' ') = "fully_normalized".toList := by
  unfold blankArg
  rw [List.takeWhile_append_of_pos (by decide), List.replicate_succ, List.takeWhile_cons_of_neg (by decide)]
  simp

theorem blankArg_copy (j : Nat) :
    copyWord Hdr.init.norm (blankArg j) = "fully_normalized ".toList ++ List.replicate 47 '\x00' := by
  have e : (blankArg j).getD 16 '\x00' = ' ' := by
    unfold blankArg
    rw [List.replicate_succ]; rfl
  unfold copyWord
  simp only [blankArg_take]
  rw [show "fully_normalized".toList.length = 16 by decide, e]
  decide

theorem norm_lit : "norm fully_normalized".toList = 'n' :: 'o' :: 'r' :: 'm' :: ' ' :: "fully_normalized".toList := by decide

def blankText (j : Nat) : List Char := "norm fully_normalized".toList ++ List.replicate (j + 1) ' '

theorem blankText_nul (j : Nat) : '\x00' ∉ blankText j := by
  unfold blankText
  simp only [List.mem_append, List.mem_replicate, not_or]
  exact ⟨by decide, by simp⟩

theorem blankText_len (j : Nat) (hj : j ≤ 200) : (blankText j).length ≤ 255 := by
  unfold blankText
  simp only [List.length_append, List.length_replicate]
  rw [show "norm fully_normalized".toList.length = 21 by decide]
  omega

theorem blankText_end (j : Nat) : ¬ "end_of_head".toList <+: blankText j := by
  rintro ⟨u, hu⟩
  unfold blankText at hu
  rw [norm_lit] at hu
  have := congrArg List.head? hu
  revert this
  rw [show "end_of_head".toList = 'e' :: "nd_of_head".toList by decide]
  simp

/-- The header after the line. -/
def blankHdr (j : Nat) : Hdr := { Hdr.init with norm := copyWord Hdr.init.norm (blankArg j) }

theorem blankText_line (j : Nat) : onLine strtod ((blankText j).dropWhile (· == ' ')) Key.all Hdr.init 0 = .ok (blankHdr j) 0 := by
  have hd : (blankText j).dropWhile (· == ' ') = blankText j := by
    unfold blankText; rw [norm_lit]; rfl
  rw [hd]
  have e : blankText j = Key.norm.name ++ (List.replicate (0 + 1) ' ' ++ blankArg j) := by
    unfold blankText blankArg; rw [norm_lit]; rfl
  rw [e]
  refine onLine_key strtod _ .norm (blankArg j) Hdr.init (blankHdr j) 0 0 (List.prefix_append _ _)
    (argument_eq .norm 0 (blankArg j) ?_) ?_ Key.all (Key.mem_all _) (by decide)
  · unfold blankArg
    rw [show "fully_normalized".toList = 'f' :: "ully_normalized".toList by decide]
    simp
  · simp only [onKey, storeText, blankArg_take]
    rw [if_pos (by decide)]
    rfl

theorem blankHdr_sized (j : Nat) : Sized (blankHdr j) := by
  have hs0 : Sized Hdr.init := ⟨by decide, by decide, by decide, by decide, by decide⟩
  exact ⟨hs0.1, hs0.2, hs0.3, by show (copyWord _ _).length = 64; rw [blankArg_copy]; decide, hs0.5⟩

theorem blankHdr_text (j : Nat) : textOf (blankHdr j) .norm = "fully_normalized ".toList := by
  show cstr (copyWord _ _) 0 = _
  rw [blankArg_copy]
  decide +kernel

theorem parse_blank (hr : ReadsC strtod val) (g : Gfc) (hg : g.Ok val) (j : Nat) (hj : j ≤ 200) (b : Buf) :
    ∃ h2, parseHeader strtod (some (g.blanksAfterNorm j)) b = .ret 0 h2 (Stream.open (g.data 'e')) ∧
      Agrees strtod (blankHdr j) h2 g.rest := by
  have hh := header_good hr g hg
  have hrest := rest_ok hr g hg
  have hg1 := getline_good (cap := 256) (s := Stream.open (g.blanksAfterNorm j)) b rfl (l := ⟨blankText j, true⟩)
    (rest := g.rest.map Ent.line ++ ⟨fin, true⟩ :: g.data 'e') rfl (blankText_len j hj)
  obtain ⟨h2, s, hloop, hsd, hag⟩ := headerLoop_ok strtod fin (g.data 'e') hh.finEnd hh.finLen hh.finNul g.rest 999 _
    (fill b (blankText j)) (blankHdr j) (by simp [Gfc.rest]) hrest (blankHdr_sized j) rfl
  refine ⟨h2, ?_, hag⟩
  unfold parseHeader
  simp only
  rw [hg1]
  simp only
  rw [headerLoop_step strtod 999 _ _ Hdr.init (blankHdr j) (blankText j) (SpaceWeather.cstr_fill b (blankText j) (blankText_nul j))
    (blankText_end j) (blankText_line j), ← hsd]
  exact hloop

theorem isNormalized_blank (h : Hdr) (e : textOf h .norm = "fully_normalized ".toList) : h.isNormalized = false := by
  unfold Hdr.isNormalized
  rw [show cstr h.norm 0 = textOf h .norm from rfl, e]
  decide

theorem agrees_blank (hr : ReadsC strtod val) (g : Gfc) (hg : g.Ok val) (h1 h2 : Hdr) (hag : Agrees strtod h1 h2 g.rest) :
    h2.gm = val g.gm.m g.gm.x ∧ h2.radius = val g.re.m g.re.x ∧ h2.maxDegree = g.degree ∧
      textOf h2 .norm = textOf h1 .norm := by
  have hn : lastArg .norm g.rest = none := rfl
  have ht := hag.text .norm rfl
  rw [hn, Option.getD_none] at ht
  refine ⟨?_, ?_, ?_, ht⟩
  · rw [hag.gm, show lastArg .gm g.rest = some (g.gm.text 'e') from rfl]
    simp only [num_read hr hg.gm.1, Option.map_some, Option.getD_some]
  · rw [hag.radius, show lastArg .radius g.rest = some (g.re.text 'e') from rfl]
    simp only [num_read hr hg.re.1, Option.map_some, Option.getD_some]
  · rw [hag.maxDegree, show lastArg .maxDegree g.rest = some (dec g.degree) from rfl]
    have e := Verif.Script.Gfc.toInt32_small _ hg.degree.2
    simp only [degree_read g hg, Option.map_some, Option.getD_some, e]

/-- **C150 is false with blanks behind `fully_normalized`**: one blank is kept as part of the argument, the coefficients
then do not count as normalised, and are used as they are though the factors were asked for. -/
theorem trailing_blank_counterexample (hr : ReadsC strtod val) (g : Gfc) (hg : g.Ok val) (j : Nat) (hj : j ≤ 200) (b : Buf)
    (l m : Nat) (denorm : Bool) (t : Table) (hm : 1 ≤ m) (hml : m ≤ l) (hl : l ≤ g.degree) :
    ∃ c, loadModel strtod (some (g.blanksAfterNorm j)) b l m denorm t = .ok (val g.gm.m g.gm.x) (val g.re.m g.re.x) c ∧
      c.normalized = false ∧ Holds val g l m false c := by
  obtain ⟨h2, hparse, hag⟩ := parse_blank hr g hg j hj b
  obtain ⟨egm, ere, eD, en⟩ := agrees_blank hr g hg _ _ hag
  have hnorm := isNormalized_blank h2 (en.trans (blankHdr_text j))
  have hit := written_items hr g hg
  obtain ⟨t', hret, hvals, -⟩ := read_complete strtod g.degree l l m (g.data 'e') t (by omega) hm hml le_rfl (by omega)
    (by rw [hit]; exact written_proper g hg l m) (by rw [hit]; exact written_readable g hg l m)
    (by rw [hit]; exact written_complete g hg l m hl)
  refine ⟨⟨l, false, fun a => (t' a : ℝ)⟩, ?_, rfl, ?_⟩
  · unfold loadModel
    rw [hparse]
    simp only [ne_eq, not_true_eq_false, if_false]
    rw [if_neg (by rw [eD]; omega)]
    simp only [Option.map_some, dataLines, Stream.open, Stream.good, Bool.not_false, Bool.and_self, if_true, eD, hret, egm,
      ere, not_true_eq_false, if_false, hnorm]
    cases denorm
    · rfl
    · simp [Harmonic.denormalize]
  · intro q hq hqn hqm
    obtain ⟨x, s, hgiv, h6, h7⟩ := hvals q.n q.k hqn (coef_small g hg q hq).1 hqm
    rw [hit] at hgiv
    obtain ⟨rfl, rfl⟩ := written_given g hg q hq x s hgiv
    refine ⟨?_, fun h => ?_⟩
    · simp only [h6, factor, Bool.false_eq_true, if_false, mul_one]
    · simp only [h7 h, factor, Bool.false_eq_true, if_false, mul_one]

/-! ### A model of degree 1 -/

def n0 : Num := ⟨"0.0".toList, "00".toList⟩
def n1 : Num := ⟨"1.0".toList, "+00".toList⟩
def nc : Num := ⟨"-.15".toList, "-09".toList⟩
def ngm : Num := ⟨"3.986".toList, "+14".toList⟩
def nre : Num := ⟨"6.378".toList, "06".toList⟩

theorem nums_ok : n0.Ok ∧ n1.Ok ∧ nc.Ok ∧ ngm.Ok ∧ nre.Ok :=
  ⟨⟨⟨[], ['0'], ['0'], by decide, .inl rfl, by decide, by decide, by decide⟩, ⟨[], "00".toList, by decide, .inl rfl, by decide, by decide⟩⟩,
    ⟨⟨[], ['1'], ['0'], by decide, .inl rfl, by decide, by decide, by decide⟩, ⟨['+'], "00".toList, by decide, .inr (.inl rfl), by decide, by decide⟩⟩,
    ⟨⟨['-'], [], "15".toList, by decide, .inr (.inr rfl), by decide, by decide, by decide⟩, ⟨['-'], "09".toList, by decide, .inr (.inr rfl), by decide, by decide⟩⟩,
    ⟨⟨[], ['3'], "986".toList, by decide, .inl rfl, by decide, by decide, by decide⟩, ⟨['+'], "14".toList, by decide, .inr (.inl rfl), by decide, by decide⟩⟩,
    ⟨⟨[], ['6'], "378".toList, by decide, .inl rfl, by decide, by decide, by decide⟩, ⟨[], "06".toList, by decide, .inl rfl, by decide, by decide⟩⟩⟩

/-- The coefficients of the order 1 come first. -/
def model1 : Gfc where
  name := "MODEL-1".toList
  gm := ngm
  re := nre
  degree := 1
  normalized := true
  coefs := [⟨1, 1, nc, n1, 0, 1, 0, 3, [' ', '1']⟩, ⟨0, 0, n1, n0, 0, 0, 0, 0, []⟩, ⟨1, 0, nc, n0, 2, 0, 0, 0, ['\t']⟩]

open Verif.Script.Gfc in
theorem nums_val : numVal n0.m n0.x = 0 ∧ numVal ngm.m ngm.x ≠ 0 ∧ numVal nre.m nre.x ≠ 0 := by
  refine ⟨?_, ?_, ?_⟩
  · unfold numVal mantVal
    rw [show natOf ((optSign n0.m).2.takeWhile isDigit ++ ((optSign n0.m).2.dropWhile isDigit).tail) = 0 by decide +kernel]
    simp
  · unfold numVal mantVal
    rw [show natOf ((optSign ngm.m).2.takeWhile isDigit ++ ((optSign ngm.m).2.dropWhile isDigit).tail) = 3986 by decide +kernel]
    rw [if_neg (by decide +kernel), if_neg (by decide +kernel)]
    positivity
  · unfold numVal mantVal
    rw [show natOf ((optSign nre.m).2.takeWhile isDigit ++ ((optSign nre.m).2.dropWhile isDigit).tail) = 6378 by decide +kernel]
    rw [if_neg (by decide +kernel), if_neg (by decide +kernel)]
    positivity

theorem model1_ok : model1.Ok Verif.Script.Gfc.numVal := by
  have hn := nums_ok
  have hv := nums_val
  refine ⟨⟨by decide, by decide, by decide⟩, ⟨hn.2.2.2.1, by decide, hv.2.1⟩, ⟨hn.2.2.2.2, by decide, hv.2.2⟩, by decide, ?_, by decide, ?_⟩
  · intro q hq
    simp only [model1, List.mem_cons, List.not_mem_nil, or_false] at hq
    rcases hq with rfl | rfl | rfl
    · exact ⟨hn.2.2.1, hn.2.1, by intro c hc; simp only [List.head?_cons, Option.some.injEq] at hc; subst hc; decide, by decide +kernel, by simp⟩
    · exact ⟨hn.2.1, hn.1, by intro c hc; simp at hc, by decide +kernel, fun _ => hv.1⟩
    · exact ⟨hn.2.2.1, hn.1, by intro c hc; simp only [List.head?_cons, Option.some.injEq] at hc; subst hc; decide, by decide +kernel, fun _ => hv.1⟩
  · intro n k
    simp only [model1, List.mem_cons, List.not_mem_nil, or_false]
    constructor
    · rintro ⟨q, rfl | rfl | rfl, rfl, rfl⟩ <;> simp
    · rintro ⟨h1, h2⟩
      have : (n = 0 ∧ k = 0) ∨ (n = 1 ∧ k = 0) ∨ (n = 1 ∧ k = 1) := by omega
      rcases this with ⟨rfl, rfl⟩ | ⟨rfl, rfl⟩ | ⟨rfl, rfl⟩
      · exact ⟨_, .inr (.inl rfl), rfl, rfl⟩
      · exact ⟨_, .inr (.inr rfl), rfl, rfl⟩
      · exact ⟨_, .inl rfl, rfl, rfl⟩

/-- The file. -/
example : model1.lines.map Line.text = ["norm fully_normalized".toList, "product_type gravity_field".toList,
    "modelname MODEL-1".toList, "earth_gravity_constant 3.986e+14".toList, "radius 6.378e06".toList, "max_degree 1".toList,
    "errors formal".toList, "tide_system tide_free".toList, "end_of_head ======".toList,
    "gfc 1  1 -.15e-09    1.0e+00 1".toList, "gfc 0 0 1.0e+00 0.0e00".toList, "gfc   1 0 -.15e-09 0.0e00\t".toList] := by
  decide +kernel

example (b : Buf) (t : Table) := load_written Verif.Script.Gfc.someStrtod_reads model1 model1_ok b 1 1 true t le_rfl le_rfl le_rfl

example (b : Buf) (t : Table) := load_converted Verif.Script.Gfc.someStrtod_reads model1 model1_ok
  (by simp only [model1, List.mem_cons, List.not_mem_nil, or_false]; rintro q (rfl | rfl | rfl) <;> decide +kernel) 9 (by decide)
  b 1 1 true t le_rfl le_rfl le_rfl

example (b : Buf) (t : Table) :=
  no_newline_counterexample Verif.Script.Gfc.someStrtod_reads model1 model1_ok
    [⟨1, 1, nc, n1, 0, 1, 0, 3, [' ', '1']⟩, ⟨0, 0, n1, n0, 0, 0, 0, 0, []⟩] ⟨1, 0, nc, n0, 2, 0, 0, 0, ['\t']⟩ rfl b 1 1 true t
    le_rfl le_rfl le_rfl le_rfl (Nat.zero_le _)

example (b : Buf) (t : Table) := trailing_blank_counterexample Verif.Script.Gfc.someStrtod_reads model1 model1_ok 0 (by decide) b 1 1
  true t le_rfl le_rfl le_rfl

end Verif.Icgem.Write

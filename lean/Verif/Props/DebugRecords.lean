import Verif.Spec.DebugRecords
import Verif.Props.DebugString
import Verif.Props.Console
import Verif.Props.Wire

/-!
# C118: A message about a record shows the record
-/

namespace Verif.Props
open Verif Verif.Spec Verif.Convert Verif.DebugString FloatOps

namespace DebugRecords

theorem read_float (erange : Text → Bool) {x : F32} (hx : x.Repr) : libcScanner.scan (floatText erange x) = some (x, []) := by
  have := C109_read_back erange x hx [] (fun c hc => by simp at hc)
  rwa [List.append_nil] at this

theorem read_int {x : ℤ} (hx : IsInt64 x) : scanInt (printInt x) = some (x, []) := by
  have := scanInt_print hx [] (by simp)
  rwa [List.append_nil] at this

end DebugRecords
open DebugRecords

/-- **C118** (prices). Under the name of a field stands its value, and different records are printed differently. -/
theorem C118_price (erange : Text → Bool) (r : PriceRecord F32) (h : MachinePrice r) :
    ShowsPrice (priceLines erange r) r ∧
      ∀ r' : PriceRecord F32, MachinePrice r' → priceLines erange r' = priceLines erange r → r' = r := by
  refine ⟨⟨⟨_, rfl, read_int h.ts⟩, ⟨_, rfl, read_float _ h.price⟩, ⟨_, rfl, read_float _ h.volume⟩⟩, fun r' h' e => ?_⟩
  unfold priceLines at e
  simp only [List.cons.injEq, and_true] at e
  obtain ⟨e1, e2, e3⟩ := e
  have e1 := printInt_inj (field_inj e1)
  have e2 := floatText_inj h'.price h.price (field_inj e2)
  have e3 := floatText_inj h'.volume h.volume (field_inj e3)
  cases r; cases r'
  dsimp only at e1 e2 e3
  rw [e1, e2, e3]

/-- **C118** (ticks). Under the name of a field stands its value, and different ticks are printed differently. -/
theorem C118_tick (erange : Text → Bool) (t : OhlcTick F32) (h : MachineTick t) :
    ShowsTick (ohlcLines erange t) t ∧
      ∀ t' : OhlcTick F32, MachineTick t' → ohlcLines erange t' = ohlcLines erange t → t' = t := by
  refine ⟨⟨⟨_, rfl, read_int h.ts⟩, ⟨_, rfl, read_float _ h.opn⟩, ⟨_, rfl, read_float _ h.high⟩, ⟨_, rfl, read_float _ h.low⟩,
    ⟨_, rfl, read_float _ h.close⟩, ⟨_, rfl, read_float _ h.volume⟩⟩, fun t' h' e => ?_⟩
  unfold ohlcLines at e
  simp only [List.cons.injEq, and_true] at e
  obtain ⟨e1, e2, e3, e4, e5, e6⟩ := e
  have e1 := printInt_inj (field_inj e1)
  have e2 := floatText_inj h'.opn h.opn (field_inj e2)
  have e3 := floatText_inj h'.high h.high (field_inj e3)
  have e4 := floatText_inj h'.low h.low (field_inj e4)
  have e5 := floatText_inj h'.close h.close (field_inj e5)
  have e6 := floatText_inj h'.volume h.volume (field_inj e6)
  cases t; cases t'
  dsimp only at e1 e2 e3 e4 e5 e6
  rw [e1, e2, e3, e4, e5, e6]

namespace DebugRecords

theorem values_signals (erange : Text → Bool) (ts : ℤ) (xs : List F32) :
    valuesOf "signal" (field "timestamp_sec" (printInt ts) :: xs.map (fun x => field "signal" (floatText erange x)) ++ [[]]) =
      xs.map (floatText erange) := by
  have h : ∀ t, ("signal".toList ++ ": ".toList).isPrefixOf (field "signal" t) = true := fun t => by
    unfold field
    exact List.isPrefixOf_iff_prefix.mpr ⟨t, rfl⟩
  have h0 : ∀ t, ("signal".toList ++ ": ".toList).isPrefixOf (field "timestamp_sec" t) = false := fun _ => rfl
  have h1 : ("signal".toList ++ ": ".toList).isPrefixOf ([] : Text) = false := rfl
  have hm : ∀ ys : List F32, (ys.map (fun x => field "signal" (floatText erange x))).filter
      (fun l => ("signal".toList ++ ": ".toList).isPrefixOf l) = ys.map (fun x => field "signal" (floatText erange x)) := by
    intro ys
    induction ys with
    | nil => rfl
    | cons y ys ih => rw [List.map_cons, List.filter_cons_of_pos (h _), ih]
  unfold valuesOf
  rw [List.filter_append, List.filter_cons_of_neg (by rw [h0]; decide), hm, List.filter_cons_of_neg (by rw [h1]; decide)]
  rw [List.filter_nil, List.append_nil, List.map_map]
  rfl

theorem read_all (erange : Text → Bool) {xs : List F32} (h : ∀ x ∈ xs, x.Repr) :
    List.Forall₂ (fun t x => libcScanner.scan t = some (x, [])) (xs.map (floatText erange)) xs := by
  induction xs with
  | nil => exact .nil
  | cons x xs ih => exact .cons (read_float erange (h x (by simp))) (ih (fun y hy => h y (by simp [hy])))

theorem signals_inj (erange : Text → Bool) : ∀ {xs ys : List F32}, (∀ x ∈ xs, x.Repr) → (∀ y ∈ ys, y.Repr) →
    xs.map (floatText erange) = ys.map (floatText erange) → xs = ys
  | [], [], _, _, _ => rfl
  | [], y :: ys, _, _, h => by simp at h
  | x :: xs, [], _, _, h => by simp at h
  | x :: xs, y :: ys, hx, hy, h => by
    simp only [List.map_cons, List.cons.injEq] at h
    rw [floatText_inj (hx x (by simp)) (hy y (by simp)) h.1,
      signals_inj erange (fun z hz => hx z (by simp [hz])) (fun z hz => hy z (by simp [hz])) h.2]

end DebugRecords

/-- **C118** (side inputs). The timestamp and, in order, all signals stand in the lines, and different records are printed
differently. -/
theorem C118_side (erange : Text → Bool) (r : SideInputRecord F32) (h : MachineSide r) :
    ShowsSide (sideLines erange r) r ∧
      ∀ r' : SideInputRecord F32, MachineSide r' → sideLines erange r' = sideLines erange r → r' = r := by
  have hv : ∀ s : SideInputRecord F32, valuesOf "signal" (sideLines erange s) = s.signals.map (floatText erange) :=
    fun s => values_signals erange s.ts s.signals
  refine ⟨⟨⟨_, rfl, read_int h.ts⟩, ?_⟩, fun r' h' e => ?_⟩
  · rw [hv]; exact read_all erange h.signals
  · have e2 := congrArg (valuesOf "signal") e
    rw [hv, hv] at e2
    have e2 := signals_inj erange h'.signals h.signals e2
    have e1 : field "timestamp_sec" (printInt r'.ts) = field "timestamp_sec" (printInt r.ts) := (List.cons.inj e).1
    have e1 := printInt_inj (field_inj e1)
    cases r; cases r'
    dsimp only at e1 e2
    rw [e1, e2]

section
variable [Libm F32]

/-- **C118** (convert.cc, a file with prices). A file was written from records; those of the selected period must not be
loaded. Then convert.cc fails, and the message shows the number and all values of the first of them that is wrong: its timestamp is not
positive or is before that of an earlier one, or its price is not positive, or its volume is negative. -/
theorem C118_price_file (erange : Text → Bool) (env : Env F32) (h1 : env.priceCodec = Wire.priceCodec) (h2 : env.debugPrice = priceLines erange)
    (fl : Flags F32) (w : Files) (a b : Time.Instant) (ha : Time.parseTime fl.startTime = some a)
    (hb : Time.parseTime fl.endTime = some b) (hone : OneInput fl) (hn : fl.inputPriceProto ≠ []) (rs : List (PriceRecord F32))
    (hw : w fl.inputPriceProto = some (fileOf Wire.priceCodec rs)) (hr : ∀ r ∈ rs, MachinePrice r)
    (hbad : ¬ Loadable PriceRecord.ts GoodPrice a.toUnixSeconds b.toUnixSeconds (periodOf PriceRecord.ts a.toUnixSeconds b.toUnixSeconds rs)) :
    (main env fl w).exit = .failure ∧
    ∃ i r what lines, rs[i]? = some r ∧ InWindow a.toUnixSeconds b.toUnixSeconds r.ts ∧
      ((what = .timestamp ∧ (r.ts ≤ 0 ∨ ∃ r' ∈ periodOf PriceRecord.ts a.toUnixSeconds b.toUnixSeconds (rs.take i), r.ts < r'.ts)) ∨
        (what = .price ∧ (r.price <=. lit F32 0) = true) ∨ (what = .volume ∧ (r.volume <. lit F32 0) = true)) ∧
      Loadable PriceRecord.ts GoodPrice a.toUnixSeconds b.toUnixSeconds
        (periodOf PriceRecord.ts a.toUnixSeconds b.toUnixSeconds (rs.take i)) ∧
      (main env fl w).err = protoComplaint env.fmt "Invalid price" what
        (periodOf PriceRecord.ts a.toUnixSeconds b.toUnixSeconds (rs.take i)).length lines ∧
      ShowsPrice lines r ∧ ShowsPrice (main env fl w).err r := by
  have hs : ∀ r ∈ rs, Storable Wire.priceCodec r := fun r h => (C81_price r (hr r h)).1
  have hall : Proto.readVector Wire.priceCodec [] (fileOf Wire.priceCodec rs) = (rs, .ok) := by
    have := C62_round_trip rs hs []
    simpa [fileOf] using this
  cases hread : readPriceProto env.priceCodec a.toUnixSeconds b.toUnixSeconds (w fl.inputPriceProto) with
  | ok out =>
    rw [h1, hw, C65_price_proto_exact _ _ rs out hs] at hread
    rw [hread.1] at hread
    exact absurd hread.2 hbad
  | error ea =>
    obtain ⟨e, about⟩ := ea
    obtain ⟨messages, hm, hcase⟩ := C99_price_proto_error env fl w a b ha hb hone hn e about hread
    rw [hm]
    refine ⟨rfl, ?_⟩
    dsimp only
    rw [h1, hw] at hread
    rcases C65_price_proto_error _ _ _ _ e about hread with ⟨_, _, h⟩ | ⟨bytes, all, st, hbytes, hv, h⟩
    · cases h
    · cases hbytes
      rw [hall] at hv
      cases hv
      rcases h with ⟨_, _, h, _⟩ | ⟨i, r, what, hi, habout, he, hwin, hwhy, hok⟩
      · cases h
      · have hmr : MachinePrice r := hr r (List.mem_of_getElem? hi)
        refine ⟨i, r, what, priceLines erange r, hi, hwin, hwhy, hok, ?_⟩
        rcases hcase with ⟨h, _⟩ | ⟨_, h, _⟩ | ⟨n, what', r', he', habout', hmsg⟩
        · rw [hw] at h; cases h
        · rw [h] at he; cases he
        · rw [he] at he'; cases he'
          rw [habout] at habout'; cases habout'
          rw [h2] at hmsg
          refine ⟨hmsg, (C118_price erange r hmr).1, ?_⟩
          rw [hmsg]
          unfold protoComplaint
          split
          · exact ⟨⟨_, rfl, read_int hmr.ts⟩, ⟨_, rfl, read_float _ hmr.price⟩, ⟨_, rfl, read_float _ hmr.volume⟩⟩
          · exact ⟨⟨_, rfl, read_int hmr.ts⟩, ⟨_, rfl, read_float _ hmr.price⟩, ⟨_, rfl, read_float _ hmr.volume⟩⟩

/-- **C118** (convert.cc, a file with ticks). A file was written from ticks; those of the selected period must not be
loaded. Then convert.cc fails, and the message shows the number and all values of the first of them that is wrong: its timestamp is not
positive or is before that of an earlier one, or a price is not positive or outside of low and high, or its volume is negative. -/
theorem C118_tick_file (erange : Text → Bool) (env : Env F32) (h1 : env.ohlcCodec = Wire.ohlcCodec) (h2 : env.debugOhlc = ohlcLines erange)
    (fl : Flags F32) (w : Files) (a b : Time.Instant) (ha : Time.parseTime fl.startTime = some a)
    (hb : Time.parseTime fl.endTime = some b) (hone : OneInput fl) (hn : fl.inputOhlcProto ≠ []) (rs : List (OhlcTick F32))
    (hw : w fl.inputOhlcProto = some (fileOf Wire.ohlcCodec rs)) (hr : ∀ r ∈ rs, MachineTick r)
    (hbad : ¬ Loadable OhlcTick.ts GoodTick a.toUnixSeconds b.toUnixSeconds (periodOf OhlcTick.ts a.toUnixSeconds b.toUnixSeconds rs)) :
    (main env fl w).exit = .failure ∧
    ∃ i r what lines, rs[i]? = some r ∧ InWindow a.toUnixSeconds b.toUnixSeconds r.ts ∧
      ((what = .timestamp ∧ (r.ts ≤ 0 ∨ ∃ r' ∈ periodOf OhlcTick.ts a.toUnixSeconds b.toUnixSeconds (rs.take i), r.ts < r'.ts)) ∨
        (what = .price ∧ ((∃ x ∈ [r.opn, r.high, r.low, r.close], (x <=. lit F32 0) = true) ∨
          (∃ x ∈ [r.opn, r.high, r.close], (r.low >. x) = true) ∨ ∃ x ∈ [r.opn, r.close], (r.high <. x) = true)) ∨ (what = .volume ∧ (r.volume <. lit F32 0) = true)) ∧
      Loadable OhlcTick.ts GoodTick a.toUnixSeconds b.toUnixSeconds
        (periodOf OhlcTick.ts a.toUnixSeconds b.toUnixSeconds (rs.take i)) ∧
      (main env fl w).err = protoComplaint env.fmt "Invalid OHLC prices" what
        (periodOf OhlcTick.ts a.toUnixSeconds b.toUnixSeconds (rs.take i)).length lines ∧
      ShowsTick lines r ∧ ShowsTick (main env fl w).err r := by
  have hs : ∀ r ∈ rs, Storable Wire.ohlcCodec r := fun r h => (C81_tick r (hr r h)).1
  have hall : Proto.readVector Wire.ohlcCodec [] (fileOf Wire.ohlcCodec rs) = (rs, .ok) := by
    have := C62_round_trip rs hs []
    simpa [fileOf] using this
  cases hread : readOhlcProto env.ohlcCodec a.toUnixSeconds b.toUnixSeconds (w fl.inputOhlcProto) with
  | ok out =>
    rw [h1, hw, C65_ohlc_proto_exact _ _ rs out hs] at hread
    rw [hread.1] at hread
    exact absurd hread.2 hbad
  | error ea =>
    obtain ⟨e, about⟩ := ea
    obtain ⟨messages, hm, hcase⟩ := C99_ohlc_proto_error env fl w a b ha hb hone hn e about hread
    rw [hm]
    refine ⟨rfl, ?_⟩
    dsimp only
    rw [h1, hw] at hread
    rcases C65_ohlc_proto_error _ _ _ _ e about hread with ⟨_, _, h⟩ | ⟨bytes, all, st, hbytes, hv, h⟩
    · cases h
    · cases hbytes
      rw [hall] at hv
      cases hv
      rcases h with ⟨_, _, h, _⟩ | ⟨i, r, what, hi, habout, he, hwin, hwhy, hok⟩
      · cases h
      · have hmr : MachineTick r := hr r (List.mem_of_getElem? hi)
        refine ⟨i, r, what, ohlcLines erange r, hi, hwin, hwhy, hok, ?_⟩
        rcases hcase with ⟨h, _⟩ | ⟨_, h, _⟩ | ⟨n, what', r', he', habout', hmsg⟩
        · rw [hw] at h; cases h
        · rw [h] at he; cases he
        · rw [he] at he'; cases he'
          rw [habout] at habout'; cases habout'
          rw [h2] at hmsg
          refine ⟨hmsg, (C118_tick erange r hmr).1, ?_⟩
          rw [hmsg]
          unfold protoComplaint
          split
          · exact ⟨⟨_, rfl, read_int hmr.ts⟩, ⟨_, rfl, read_float _ hmr.opn⟩, ⟨_, rfl, read_float _ hmr.high⟩,
              ⟨_, rfl, read_float _ hmr.low⟩, ⟨_, rfl, read_float _ hmr.close⟩, ⟨_, rfl, read_float _ hmr.volume⟩⟩
          · exact ⟨⟨_, rfl, read_int hmr.ts⟩, ⟨_, rfl, read_float _ hmr.opn⟩, ⟨_, rfl, read_float _ hmr.high⟩,
              ⟨_, rfl, read_float _ hmr.low⟩, ⟨_, rfl, read_float _ hmr.close⟩, ⟨_, rfl, read_float _ hmr.volume⟩⟩

/-- **C118** (convert.cc, side inputs). Side inputs have been read, and the output file can be opened, but one of the records is too
large to be serialised. Then convert.cc fails, the message shows all values of the first such record, and the file holds
exactly the records before it. -/
theorem C118_unwritten (erange : Text → Bool) (env : Env F32) (h2 : env.debugSide = sideLines erange) (fl : Flags F32) (w : Files)
    (before after : List (SideInputRecord F32)) (r : SideInputRecord F32) (hr : ReadsSide env fl w (before ++ r :: after))
    (hm : MachineSide r) (hn : fl.outputSide ≠ []) (hc : env.canWrite fl.outputSide = true)
    (hb : ∀ x ∈ before, Writable env.sideCodec x) (hbig : ¬ Writable env.sideCodec r) :
    (main env fl w).exit = .failure ∧ (main env fl w).files fl.outputSide = some (fileOf env.sideCodec before) ∧
    ∃ lines, (main env fl w).err = "Cannot serialize the message:".toList :: lines ∧ ShowsSide lines r ∧
      ShowsSide (main env fl w).err r := by
  obtain ⟨pre, hmain⟩ := reads_side_unique hr
  have hwr := (C62_write env.sideCodec (before ++ r :: after) []).2 before r after rfl hb hbig
  have hout : output env.canWrite env.sideCodec (before ++ r :: after) fl.outputSide w =
      (w.write fl.outputSide (fileOf env.sideCodec before), .invalidArgument) := by
    unfold output writeHistory
    rw [if_pos (by simp [hn]), if_pos hc, hwr]
    rfl
  have hfind : (before ++ r :: after).find? (fun m => (Proto.serializeDelimited env.sideCodec m).isNone) = some r := by
    have h0 : before.find? (fun m => (Proto.serializeDelimited env.sideCodec m).isNone) = none := by
      rw [List.find?_eq_none]
      intro x hx
      have := hb x hx
      unfold Writable at this
      unfold Proto.serializeDelimited
      rw [if_neg (by omega)]
      simp
    rw [List.find?_append, h0]
    have : (Proto.serializeDelimited env.sideCodec r).isNone = true := by
      unfold Writable at hbig
      unfold Proto.serializeDelimited
      rw [if_pos (by omega)]
      rfl
    simp [this]
  have hmsg : outputMessage env.canWrite env.sideCodec env.debugSide (before ++ r :: after) fl.outputSide =
      "Cannot serialize the message:".toList :: sideLines erange r := by
    unfold outputMessage
    rw [if_pos hc, hfind, h2]
  have hx : ∃ lines, main env fl w = ⟨w.write fl.outputSide (fileOf env.sideCodec before), lines, .failure,
      "Cannot serialize the message:".toList :: sideLines erange r⟩ := by
    rw [hmain]
    unfold convertAndWrite writeOutputs
    dsimp only [List.isEmpty_nil, Bool.not_true, Bool.false_and]
    rw [if_neg (by simp), show output env.canWrite env.priceCodec [] fl.outputPrice w = (w, .ok) from rfl]
    dsimp only
    rw [show output env.canWrite env.ohlcCodec [] fl.outputOhlc w = (w, .ok) from rfl]
    dsimp only
    rw [hout]
    dsimp only
    rw [hmsg]
    exact ⟨_, rfl⟩
  obtain ⟨lines, hx⟩ := hx
  have hs := (C118_side erange r hm).1
  rw [hx]
  exact ⟨rfl, by simp [Files.write], sideLines erange r, rfl, hs, ⟨_, rfl, read_int hm.ts⟩, hs.2⟩

end

/-! ### Examples -/

namespace DebugRecords

/-- Two records; the price of the second is negative. -/
def exPrices : List (PriceRecord F32) := [⟨1483228800, lit F32 (1 / 3), .fin 2⟩, ⟨1483228860, lit F32 (-1 / 10), .fin 1⟩]

/-- Two ticks; the volume of the second is negative. -/
def exTicks : List (OhlcTick F32) :=
  [⟨1483228800, .fin 2, .fin 4, .fin 1, .fin 3, .fin 2⟩, ⟨1483228860, .fin 3, .fin 3, .fin 3, .fin 3, .fin (-1)⟩]

def exFiles : Files := fun name =>
  if name = "price".toList then some (fileOf Wire.priceCodec exPrices)
  else if name = "ohlc".toList then some (fileOf Wire.ohlcCodec exTicks)
  else if name = "side".toList then some ("1483228800,0.5,-1".toList.map (fun c => UInt8.ofNat c.toNat))
  else none

/-- `%d`, and `DebugString` as modelled; messages about side inputs cannot be serialised. -/
def exEnv : Env F32 :=
  ⟨⟨fun n => String.ofList (printInt n), fun _ _ => ""⟩, libcScanner, Wire.priceCodec, Wire.ohlcCodec,
    ⟨fun _ => List.replicate (2 ^ 31) 0, fun _ => none⟩, fun _ => true,
    priceLines (fun _ => false), ohlcLines (fun _ => false), sideLines (fun _ => false), fun _ => []⟩

def exPriceFlags : Flags F32 :=
  ⟨[], "price".toList, "out".toList, [], [], [], [], [], "2017-01-01".toList, "2017-01-02".toList, .fin (1 / 8), 60, 10, 20⟩

def exTickFlags : Flags F32 :=
  ⟨[], [], [], [], "ohlc".toList, "out".toList, [], [], "2017-01-01".toList, "2017-01-02".toList, .fin (1 / 8), 60, 10, 20⟩

theorem small {n : ℤ} (h : |n| < 2 ^ 24) : (Fl.fin (n : ℚ) : F32).Repr :=
  ⟨n, 0, h, by decide, by decide, by simp⟩

theorem machine_prices : ∀ r ∈ exPrices, MachinePrice r := by
  intro r hr
  simp only [exPrices, List.mem_cons, List.not_mem_nil, or_false] at hr
  rcases hr with rfl | rfl
  · exact ⟨by simp [IsInt64], Fl.ofRat_repr (by decide) (by decide) _, small (n := 2) (by decide)⟩
  · exact ⟨by simp [IsInt64], Fl.ofRat_repr (by decide) (by decide) _, small (n := 1) (by decide)⟩

theorem machine_ticks : ∀ r ∈ exTicks, MachineTick r := by
  intro r hr
  simp only [exTicks, List.mem_cons, List.not_mem_nil, or_false] at hr
  rcases hr with rfl | rfl
  · exact ⟨by simp [IsInt64], small (n := 2) (by decide), small (n := 4) (by decide), small (n := 1) (by decide),
      small (n := 3) (by decide), small (n := 2) (by decide)⟩
  · exact ⟨by simp [IsInt64], small (n := 3) (by decide), small (n := 3) (by decide), small (n := 3) (by decide),
      small (n := 3) (by decide), small (n := -1) (by decide)⟩

theorem times : Time.parseTime "2017-01-01".toList = some (.sec 1483228800) ∧
    Time.parseTime "2017-01-02".toList = some (.sec 1483315200) := by decide +kernel

/-- What is printed about the second record. -/
example : priceLines (fun _ => false) (exPrices.getLast (by decide)) =
    ["timestamp_sec: 1483228860".toList, "price: -0.1".toList, "volume: 1".toList, []] := by decide +kernel

example : sideLines (fun _ => false) ⟨60, [lit F32 (1 / 3), .nan]⟩ =
    ["timestamp_sec: 60".toList, "signal: 0.333333343".toList, "signal: nan".toList, []] := by decide +kernel

example := C118_price (fun _ => false) _ (machine_prices _ (List.getLast_mem (by decide)))
example := C118_tick (fun _ => false) _ (machine_ticks _ (List.getLast_mem (by decide)))
example := C118_side (fun _ => false) ⟨60, [lit F32 (1 / 3), .nan]⟩
  ⟨by simp [IsInt64], by
    intro x hx
    simp only [List.mem_cons, List.not_mem_nil, or_false] at hx
    rcases hx with rfl | rfl
    · exact Fl.ofRat_repr (by decide) (by decide) _
    · trivial⟩

/-- The second price is reported. -/
example [Libm F32] := C118_price_file (fun _ => false) exEnv rfl rfl exPriceFlags exFiles _ _ times.1 times.2 (by unfold OneInput; decide)
  (by decide) exPrices rfl machine_prices (fun h => absurd (h.each ⟨1483228860, lit F32 (-1 / 10), .fin 1⟩ (by decide +kernel)).price
    (by decide +kernel))

/-- The second tick is reported. -/
example [Libm F32] := C118_tick_file (fun _ => false) exEnv rfl rfl exTickFlags exFiles _ _ times.1 times.2 (by unfold OneInput; decide)
  (by decide) exTicks rfl machine_ticks (fun h => absurd (h.each ⟨1483228860, .fin 3, .fin 3, .fin 3, .fin 3, .fin (-1)⟩
    (by decide +kernel)).volume (by decide +kernel))

def exSideFlags : Flags F32 :=
  ⟨[], [], [], [], [], [], "side".toList, "out".toList, "2017-01-01".toList, "2017-01-02".toList, .fin (1 / 8), 60, 10, 20⟩

/-- In an environment in which no message can be serialised, the first record is reported. -/
example [Libm F32] := C118_unwritten (fun _ => false) exEnv rfl exSideFlags exFiles [] [] ⟨1483228800, [.fin (1 / 2), .fin (-1)]⟩
  ⟨by unfold OneInput; decide, 1483228800, 1483315200, ⟨by decide +kernel, by decide +kernel⟩, by decide, by decide +kernel⟩
  ⟨by simp [IsInt64], by
    intro x hx
    simp only [List.mem_cons, List.not_mem_nil, or_false] at hx
    rcases hx with rfl | rfl
    · exact ⟨1, -1, by decide, by decide, by decide, by norm_num⟩
    · exact small (n := -1) (by decide)⟩
  (by decide) rfl (by simp) (by
    unfold Writable
    rw [show exEnv.sideCodec.encode = fun _ => List.replicate (2 ^ 31) 0 from rfl, List.length_replicate]
    omega)

end DebugRecords

end Verif.Props

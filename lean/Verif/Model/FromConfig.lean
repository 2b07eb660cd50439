import Verif.Model.Setup
import Verif.Model.Config

/-!
# From the values of a configuration to the parameters of a model

`process_input_to_model` (pyDeltaRCM/init_tools.py 250-252) sets one attribute per configuration value.
`inputOf` collects those that the model physics depends on. Numbers are used with their exact value; an
attribute that is missing or has no number where one is needed gives `none` (Python would raise a
`TypeError` or an `AttributeError` when the value is used).
-/

namespace Verif.Model

variable {K : Type*} [Field K] [LinearOrder K] [FloorRing K]

/-- The value of a number. -/
def Val.num : Val → Option ℚ
  | .int i => some i
  | .float q => some q
  | _ => none

/-- `getattr(self, k)` of a number. -/
def getNum (d : Dict Val) (k : String) : Option K :=
  (dget d k).bind (fun v => v.num.map (fun q : ℚ => (q : K)))

/-- `getattr(self, k)` of an integer. -/
def getInt (d : Dict Val) (k : String) : Option ℤ :=
  (dget d k).bind (fun v => match v with | .int i => some i | _ => none)

/-- `getattr(self, k)` of a boolean. -/
def getBool (d : Dict Val) (k : String) : Option Bool :=
  (dget d k).bind (fun v => match v with | .bool b => some b | _ => none)

/-- `getattr(self, k)` of a number or `None`. -/
def getNumOpt (d : Dict Val) (k : String) : Option (Option K) :=
  (dget d k).bind (fun v => match v with
    | .null => some none
    | v => v.num.map (fun q : ℚ => some (q : K)))

/-- `getattr(self, k)` of an integer or `None`. -/
def getIntOpt (d : Dict Val) (k : String) : Option (Option ℤ) :=
  (dget d k).bind (fun v => match v with
    | .null => some none
    | .int i => some (some i)
    | _ => none)

/-- The attributes set from the configuration values (pyDeltaRCM/init_tools.py 250-252). -/
def inputOf (d : Dict Val) : Option (Input K) :=
  (getNum d "Length").bind fun Length =>
  (getNum d "Width").bind fun Width =>
  (getNum d "dx").bind fun dx =>
  (getNum d "L0_meters").bind fun L0m =>
  (getNum d "S0").bind fun S0 =>
  (getInt d "itermax").bind fun itermax =>
  (getInt d "Np_water").bind fun NpWater =>
  (getNum d "u0").bind fun u0 =>
  (getNum d "N0_meters").bind fun N0m =>
  (getNum d "h0").bind fun h0 =>
  (getNumOpt d "hb").bind fun hb =>
  (getNum d "H_SL").bind fun HSL =>
  (getNum d "SLR").bind fun SLR =>
  (getInt d "Np_sed").bind fun NpSed =>
  (getNum d "f_bedload").bind fun fBedload =>
  (getNumOpt d "active_layer_thickness").bind fun actThick =>
  (getNum d "C0_percent").bind fun C0pct =>
  (getNum d "Csmooth").bind fun Csmooth =>
  (getBool d "toggle_subsidence").bind fun toggleSub =>
  (getNum d "subsidence_rate").bind fun subRate =>
  (getNum d "start_subsidence").bind fun startSub =>
  (getInt d "save_dt").bind fun saveDt =>
  (getIntOpt d "checkpoint_dt").bind fun ckptDt =>
  (getNum d "omega_sfc").bind fun omegaSfc =>
  (getNum d "omega_flow").bind fun omegaFlow =>
  (getInt d "Nsmooth").bind fun Nsmooth =>
  (getNum d "theta_water").bind fun thetaWater =>
  (getNum d "coeff_theta_sand").bind fun coeffThetaSand =>
  (getNum d "coeff_theta_mud").bind fun coeffThetaMud =>
  (getNum d "beta").bind fun beta =>
  (getNum d "sed_lag").bind fun sedLag =>
  (getNum d "coeff_U_dep_mud").bind fun coeffUdepMud =>
  (getNum d "coeff_U_ero_mud").bind fun coeffUeroMud =>
  (getNum d "coeff_U_ero_sand").bind fun coeffUeroSand =>
  (getNum d "alpha").bind fun alpha =>
  (getNumOpt d "stepmax").bind fun stepmax =>
  (getNum d "sand_frac_bc").bind fun sandFracBc =>
  some
    { Length := Length, Width := Width, dx := dx, L0m := L0m, S0 := S0, itermax := itermax,
      NpWater := NpWater, u0 := u0, N0m := N0m, h0 := h0, hb := hb, HSL := HSL, SLR := SLR,
      NpSed := NpSed, fBedload := fBedload, actThick := actThick, C0pct := C0pct,
      Csmooth := Csmooth, toggleSub := toggleSub, subRate := subRate, startSub := startSub,
      saveDt := saveDt, ckptDt := ckptDt, omegaSfc := omegaSfc, omegaFlow := omegaFlow,
      Nsmooth := Nsmooth, thetaWater := thetaWater, coeffThetaSand := coeffThetaSand,
      coeffThetaMud := coeffThetaMud, beta := beta, sedLag := sedLag,
      coeffUdepMud := coeffUdepMud, coeffUeroMud := coeffUeroMud,
      coeffUeroSand := coeffUeroSand, alpha := alpha, stepmax := stepmax,
      sandFracBc := sandFracBc }

/-- What making a model from a configuration may raise. -/
inductive LoadErr
  | config (e : CfgErr)
  | setup (e : SetupErr)
  /-- a value is used that has no number -/
  | value
  deriving DecidableEq

/-- `DeltaModel(input_file, **kwargs)` up to the initial state (pyDeltaRCM/model.py 84-123): the file is
read, the values become attributes, the domain is made. `sub` are the parameters of a subclass. -/
def load (O : Oracle K) (sub : Dict (Entry PyType Val)) (file : Option (Option (Dict Val)))
    (kw : Dict Val) : Except LoadErr (Built K) :=
  match importFiles Val.type defaultTable sub file kw with
  | .error e => .error (.config e)
  | .ok (vars, _) =>
    match inputOf vars with
    | none => .error .value
    | some I =>
      match create O I with
      | .error e => .error (.setup e)
      | .ok M => .ok M

end Verif.Model

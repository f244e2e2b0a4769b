import Verif.Model.F256

/-!
# Mathematical constants, src/consts.rs
-/

namespace Verif.Consts

/-- src/consts.rs:17-22 -/
def PI : F256 := ⟨U256.new
  85070776964233020888379420810864062491#128
  174929234171320688473765933587459524450#128⟩

/-- src/consts.rs:27-32 -/
def TAU : F256 := ⟨U256.new
  85071101482786679315106203966884638747#128
  174929234171320688473765933587459524450#128⟩

/-- src/consts.rs:37-44 -/
def FRAC_3_PI_2 : F256 := F256.new 0 2 (U256.new
  382314414047586946914081706939412#128
  216267517358725132221168102048536696202#128)

/-- src/consts.rs:49-54 -/
def FRAC_PI_2 : F256 := ⟨U256.new
  85070452445679362461652637654843486235#128
  174929234171320688473765933587459524450#128⟩

/-- src/consts.rs:59-64 -/
def FRAC_PI_3 : F256 := ⟨U256.new
  85070282528162007978565120285195957607#128
  230046945087859946803635491535562420119#128⟩

/-- src/consts.rs:69-74 -/
def FRAC_PI_4 : F256 := ⟨U256.new
  85070127927125704034925854498822909979#128
  174929234171320688473765933587459524450#128⟩

/-- src/consts.rs:79-84 -/
def FRAC_PI_6 : F256 := ⟨U256.new
  85069958009608349551838337129175381351#128
  230046945087859946803635491535562420119#128⟩

/-- src/consts.rs:89-94 -/
def FRAC_PI_8 : F256 := ⟨U256.new
  85069803408572045608199071342802333723#128
  174929234171320688473765933587459524450#128⟩

/-- src/consts.rs:99-104 -/
def FRAC_1_PI : F256 := ⟨U256.new
  85069706845875500327645499421189881510#128
  206986278175927573935717840202627382231#128⟩

/-- src/consts.rs:109-114 -/
def FRAC_2_PI : F256 := ⟨U256.new
  85070031364429158754372282577210457766#128
  206986278175927573935717840202627382231#128⟩

/-- src/consts.rs:119-124 -/
def SQRT_PI : F256 := ⟨U256.new
  85070517887287421179178408574669870555#128
  196081862527210367688260911531529420449#128⟩

/-- src/consts.rs:129-134 -/
def FRAC_2_SQRT_PI : F256 := ⟨U256.new
  85070308873102583148344920635171925375#128
  287655892912639724059401590396951075229#128⟩

/-- src/consts.rs:139-144 -/
def SQRT_2 : F256 := ⟨U256.new
  85070401631667124460448299797938859689#128
  116743028156957324320397937785460273254#128⟩

/-- src/consts.rs:149-154 -/
def FRAC_1_SQRT_2 : F256 := ⟨U256.new
  85070077113113466033721516641918283433#128
  116743028156957324320397937785460273254#128⟩

/-- src/consts.rs:159-164 -/
def SQRT_5 : F256 := ⟨U256.new
  85070630034453927516731555118236173774#128
  293111668962265138556237643962472537356#128⟩

/-- src/consts.rs:169-174 -/
def PHI : F256 := ⟨U256.new
  85070467775177098303368163540225885646#128
  293111668962265138556237643962472537356#128⟩

/-- src/consts.rs:179-184 -/
def GAMMA : F256 := ⟨U256.new
  85069992808959086250767892500525883434#128
  118855979546025341659232107741091106323#128⟩

/-- src/consts.rs:189-194 -/
def E : F256 := ⟨U256.new
  85070708278124661195610032245162902759#128
  222802656701688313363499752982718194317#128⟩

end Verif.Consts

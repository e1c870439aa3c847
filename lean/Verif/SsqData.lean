import Mathlib.Data.Rat.Defs

/-!
# Tables of `SSQ` (generated by tools/gen_ssq.py from /repo/lunar/lunar_ssq.cpp)
-/

namespace Verif.Ssq

/-- the decimal constants of `SSQ::suoKB` — lunar_ssq.cpp:27-41 -/
def suoKBDec : List ℚ := [
  1457698231017/1000000, 2953067166/100000000,
  1546082512234/1000000, 2953085106/100000000,
  1640640735300/1000000, 2953060000/100000000,
  1642472151543/1000000, 2953085439/100000000,
  1683430509300/1000000, 2953086148/100000000,
  1752148041079/1000000, 2953085097/100000000,
  1807665420323/1000000, 2953059851/100000000,
  1883618114100/1000000, 2953060000/100000000,
  1907360704700/1000000, 2953060000/100000000,
  1936596224900/1000000, 2953060000/100000000,
  1939135675300/1000000, 2953060000/100000000,
  194716800/100]

/-- the decimal constants of `SSQ::qiKB` — lunar_ssq.cpp:43-81 -/
def qiKBDec : List ℚ := [
  1640650479938/1000000, 1521842500/100000000,
  1642476703182/1000000, 1521874996/100000000,
  1683430515601/1000000, 15218750011/1000000000,
  1752157640664/1000000, 15218749978/1000000000,
  1807675003759/1000000, 15218620279/1000000000,
  1883627765182/1000000, 15218612292/1000000000,
  1907369128100/1000000, 15218449176/1000000000,
  1936603140413/1000000, 15218425000/1000000000,
  1939145524180/1000000, 15218466998/1000000000,
  1947180798300/1000000, 15218524844/1000000000,
  1964362041824/1000000, 15218533526/1000000000,
  1987372340971/1000000, 15218513908/1000000000,
  1999653819126/1000000, 15218530782/1000000000,
  2007445469786/1000000, 15218535181/1000000000,
  2021324917146/1000000, 15218526248/1000000000,
  2047257232342/1000000, 15218519654/1000000000,
  2070282898213/1000000, 15218425000/1000000000,
  2073204872850/1000000, 15218515221/1000000000,
  2080144500926/1000000, 15218530782/1000000000,
  2086703688963/1000000, 15218523776/1000000000,
  2110033182763/1000000, 15218425000/1000000000,
  2111190300888/1000000, 15218425000/1000000000,
  2113731271005/1000000, 15218515671/1000000000,
  2120670840263/1000000, 15218425000/1000000000,
  2123973309063/1000000, 15218425000/1000000000,
  2125068997336/1000000, 15218477932/1000000000,
  2136026312633/1000000, 15218472436/1000000000,
  2156099495538/1000000, 15218425000/1000000000,
  2159021324663/1000000, 15218425000/1000000000,
  2162308575254/1000000, 15218461742/1000000000,
  2178485706538/1000000, 15218425000/1000000000,
  2178759662849/1000000, 15218445786/1000000000,
  2185334020800/1000000, 15218425000/1000000000,
  2187525481425/1000000, 15218425000/1000000000,
  2188621191481/1000000, 15218437494/1000000000,
  232214776/100]

/-- the compressed string `suoS` — lunar_ssq.cpp:89-111 -/
def suoS : List (List Char) := [
  /- EqoFscDcrFpmEsF2DfFideFelFpFfFfFiaipqti1ksttikptikqckstekqttgkqttgkqteksttikptikq2fjstgjqttjkqttgkqt -/ ['E','q','o','F','s','c','D','c','r','F','p','m','E','s','F','2','D','f','F','i','d','e','F','e','l','F','p','F','f','F','f','F','i','a','i','p','q','t','i','1','k','s','t','t','i','k','p','t','i','k','q','c','k','s','t','e','k','q','t','t','g','k','q','t','t','g','k','q','t','e','k','s','t','t','i','k','p','t','i','k','q','2','f','j','s','t','g','j','q','t','t','j','k','q','t','t','g','k','q','t'],
  /- ekstfkptikq2tijstgjiFkirFsAeACoFsiDaDiADc1AFbBfgdfikijFifegF1FhaikgFag1E2btaieeibggiffdeigFfqDfaiBkF -/ ['e','k','s','t','f','k','p','t','i','k','q','2','t','i','j','s','t','g','j','i','F','k','i','r','F','s','A','e','A','C','o','F','s','i','D','a','D','i','A','D','c','1','A','F','b','B','f','g','d','f','i','k','i','j','F','i','f','e','g','F','1','F','h','a','i','k','g','F','a','g','1','E','2','b','t','a','i','e','e','i','b','g','g','i','f','f','d','e','i','g','F','f','q','D','f','a','i','B','k','F'],
  /- 1kEaikhkigeidhhdiegcFfakF1ggkidbiaedksaFffckekidhhdhdikcikiakicjF1deedFhFccgicdekgiFbiaikcfi1kbFibef -/ ['1','k','E','a','i','k','h','k','i','g','e','i','d','h','h','d','i','e','g','c','F','f','a','k','F','1','g','g','k','i','d','b','i','a','e','d','k','s','a','F','f','f','c','k','e','k','i','d','h','h','d','h','d','i','k','c','i','k','i','a','k','i','c','j','F','1','d','e','e','d','F','h','F','c','c','g','i','c','d','e','k','g','i','F','b','i','a','i','k','c','f','i','1','k','b','F','i','b','e','f'],
  /- gEgFdcFkFeFkdcfkF1kfkcickEiFkDacFiEfbiaejcFfffkhkdgkaiei1ehigikhdFikfckF1dhhdikcfgjikhfjicjicgiehdik -/ ['g','E','g','F','d','c','F','k','F','e','F','k','d','c','f','k','F','1','k','f','k','c','i','c','k','E','i','F','k','D','a','c','F','i','E','f','b','i','a','e','j','c','F','f','f','f','k','h','k','d','g','k','a','i','e','i','1','e','h','i','g','i','k','h','d','F','i','k','f','c','k','F','1','d','h','h','d','i','k','c','f','g','j','i','k','h','f','j','i','c','j','i','c','g','i','e','h','d','i','k'],
  /- cikggcifgiejF1jkieFhegikggcikFegiegkfjebhigikggcikdgkaFkijcfkcikfkcifikiggkaeeigefkcdfcfkhkdgkegieid -/ ['c','i','k','g','g','c','i','f','g','i','e','j','F','1','j','k','i','e','F','h','e','g','i','k','g','g','c','i','k','F','e','g','i','e','g','k','f','j','e','b','h','i','g','i','k','g','g','c','i','k','d','g','k','a','F','k','i','j','c','f','k','c','i','k','f','k','c','i','f','i','k','i','g','g','k','a','e','e','i','g','e','f','k','c','d','f','c','f','k','h','k','d','g','k','e','g','i','e','i','d'],
  /- hijcFfakhfgeidieidiegikhfkfckfcjbdehdikggikgkfkicjicjF1dbidikFiggcifgiejkiegkigcdiegfggcikdbgfgefjF1 -/ ['h','i','j','c','F','f','a','k','h','f','g','e','i','d','i','e','i','d','i','e','g','i','k','h','f','k','f','c','k','f','c','j','b','d','e','h','d','i','k','g','g','i','k','g','k','f','k','i','c','j','i','c','j','F','1','d','b','i','d','i','k','F','i','g','g','c','i','f','g','i','e','j','k','i','e','g','k','i','g','c','d','i','e','g','f','g','g','c','i','k','d','b','g','f','g','e','f','j','F','1'],
  /- kfegikggcikdgFkeeijcfkcikfkekcikdgkabhkFikaffcfkhkdgkegbiaekfkiakicjhfgqdq2fkiakgkfkhfkfcjiekgFebicg -/ ['k','f','e','g','i','k','g','g','c','i','k','d','g','F','k','e','e','i','j','c','f','k','c','i','k','f','k','e','k','c','i','k','d','g','k','a','b','h','k','F','i','k','a','f','f','c','f','k','h','k','d','g','k','e','g','b','i','a','e','k','f','k','i','a','k','i','c','j','h','f','g','q','d','q','2','f','k','i','a','k','g','k','f','k','h','f','k','f','c','j','i','e','k','g','F','e','b','i','c','g'],
  /- gbedF1jikejbbbiakgbgkacgiejkijjgigfiakggfggcibFifjefjF1kfekdgjcibFeFkijcfkfhkfkeaieigekgbhkfikidfcje -/ ['g','b','e','d','F','1','j','i','k','e','j','b','b','b','i','a','k','g','b','g','k','a','c','g','i','e','j','k','i','j','j','g','i','g','f','i','a','k','g','g','f','g','g','c','i','b','F','i','f','j','e','f','j','F','1','k','f','e','k','d','g','j','c','i','b','F','e','F','k','i','j','c','f','k','f','h','k','f','k','e','a','i','e','i','g','e','k','g','b','h','k','f','i','k','i','d','f','c','j','e'],
  /- aibgekgdkiffiffkiakF1jhbakgdki1dj1ikfkicjicjieeFkgdkicggkighdF1jfgkgfgbdkicggfggkidFkiekgijkeigfiski -/ ['a','i','b','g','e','k','g','d','k','i','f','f','i','f','f','k','i','a','k','F','1','j','h','b','a','k','g','d','k','i','1','d','j','1','i','k','f','k','i','c','j','i','c','j','i','e','e','F','k','g','d','k','i','c','g','g','k','i','g','h','d','F','1','j','f','g','k','g','f','g','b','d','k','i','c','g','g','f','g','g','k','i','d','F','k','i','e','k','g','i','j','k','e','i','g','f','i','s','k','i'],
  /- ggfaidheigF1jekijcikickiggkidhhdbgcfkFikikhkigeidieFikggikhkffaffijhidhhakgdkhkijF1kiakF1kfheakgdkif -/ ['g','g','f','a','i','d','h','e','i','g','F','1','j','e','k','i','j','c','i','k','i','c','k','i','g','g','k','i','d','h','h','d','b','g','c','f','k','F','i','k','i','k','h','k','i','g','e','i','d','i','e','F','i','k','g','g','i','k','h','k','f','f','a','f','f','i','j','h','i','d','h','h','a','k','g','d','k','h','k','i','j','F','1','k','i','a','k','F','1','k','f','h','e','a','k','g','d','k','i','f'],
  /- iggkigicjiejkieedikgdfcggkigieeiejfgkgkigbgikicggkiaideeijkefjeijikhkiggkiaidheigcikaikffikijgkiahi1 -/ ['i','g','g','k','i','g','i','c','j','i','e','j','k','i','e','e','d','i','k','g','d','f','c','g','g','k','i','g','i','e','e','i','e','j','f','g','k','g','k','i','g','b','g','i','k','i','c','g','g','k','i','a','i','d','e','e','i','j','k','e','f','j','e','i','j','i','k','h','k','i','g','g','k','i','a','i','d','h','e','i','g','c','i','k','a','i','k','f','f','i','k','i','j','g','k','i','a','h','i','1'],
  /- hhdikgjfifaakekighie1hiaikggikhkffakicjhiahaikggikhkijF1kfejfeFhidikggiffiggkigicjiekgieeigikggiffig -/ ['h','h','d','i','k','g','j','f','i','f','a','a','k','e','k','i','g','h','i','e','1','h','i','a','i','k','g','g','i','k','h','k','f','f','a','k','i','c','j','h','i','a','h','a','i','k','g','g','i','k','h','k','i','j','F','1','k','f','e','j','f','e','F','h','i','d','i','k','g','g','i','f','f','i','g','g','k','i','g','i','c','j','i','e','k','g','i','e','e','i','g','i','k','g','g','i','f','f','i','g'],
  /- gkidheigkgfjkeigiegikifiggkidhedeijcfkFikikhkiggkidhh1ehigcikaffkhkiggkidhh1hhigikekfiFkFikcidhh1hit -/ ['g','k','i','d','h','e','i','g','k','g','f','j','k','e','i','g','i','e','g','i','k','i','f','i','g','g','k','i','d','h','e','d','e','i','j','c','f','k','F','i','k','i','k','h','k','i','g','g','k','i','d','h','h','1','e','h','i','g','c','i','k','a','f','f','k','h','k','i','g','g','k','i','d','h','h','1','h','h','i','g','i','k','e','k','f','i','F','k','F','i','k','c','i','d','h','h','1','h','i','t'],
  /- cikggikhkfkicjicghiediaikggikhkijbjfejfeFhaikggifikiggkigiejkikgkgieeigikggiffiggkigieeigekijcijikgg -/ ['c','i','k','g','g','i','k','h','k','f','k','i','c','j','i','c','g','h','i','e','d','i','a','i','k','g','g','i','k','h','k','i','j','b','j','f','e','j','f','e','F','h','a','i','k','g','g','i','f','i','k','i','g','g','k','i','g','i','e','j','k','i','k','g','k','g','i','e','e','i','g','i','k','g','g','i','f','f','i','g','g','k','i','g','i','e','e','i','g','e','k','i','j','c','i','j','i','k','g','g'],
  /- ifikiggkideedeijkefkfckikhkiggkidhh1ehijcikaffkhkiggkidhh1hhigikhkikFikfckcidhh1hiaikgjikhfjicjicgie -/ ['i','f','i','k','i','g','g','k','i','d','e','e','d','e','i','j','k','e','f','k','f','c','k','i','k','h','k','i','g','g','k','i','d','h','h','1','e','h','i','j','c','i','k','a','f','f','k','h','k','i','g','g','k','i','d','h','h','1','h','h','i','g','i','k','h','k','i','k','F','i','k','f','c','k','c','i','d','h','h','1','h','i','a','i','k','g','j','i','k','h','f','j','i','c','j','i','c','g','i','e'],
  /- hdikcikggifikigiejfejkieFhegikggifikiggfghigkfjeijkhigikggifikiggkigieeijcijcikfksikifikiggkidehdeij -/ ['h','d','i','k','c','i','k','g','g','i','f','i','k','i','g','i','e','j','f','e','j','k','i','e','F','h','e','g','i','k','g','g','i','f','i','k','i','g','g','f','g','h','i','g','k','f','j','e','i','j','k','h','i','g','i','k','g','g','i','f','i','k','i','g','g','k','i','g','i','e','e','i','j','c','i','j','c','i','k','f','k','s','i','k','i','f','i','k','i','g','g','k','i','d','e','h','d','e','i','j'],
  /- cfdckikhkiggkhghh1ehijikifffffkhsFngErD1pAfBoDd1BlEtFqA2AqoEpDqElAEsEeB2BmADlDkqBtC1FnEpDqnEmFsFsAFn -/ ['c','f','d','c','k','i','k','h','k','i','g','g','k','h','g','h','h','1','e','h','i','j','i','k','i','f','f','f','f','f','k','h','s','F','n','g','E','r','D','1','p','A','f','B','o','D','d','1','B','l','E','t','F','q','A','2','A','q','o','E','p','D','q','E','l','A','E','s','E','e','B','2','B','m','A','D','l','D','k','q','B','t','C','1','F','n','E','p','D','q','n','E','m','F','s','F','s','A','F','n'],
  /- llBbFmDsDiCtDmAB2BmtCgpEplCpAEiBiEoFqFtEqsDcCnFtADnFlEgdkEgmEtEsCtDmADqFtAFrAtEcCqAE1BoFqC1F1DrFtBmF -/ ['l','l','B','b','F','m','D','s','D','i','C','t','D','m','A','B','2','B','m','t','C','g','p','E','p','l','C','p','A','E','i','B','i','E','o','F','q','F','t','E','q','s','D','c','C','n','F','t','A','D','n','F','l','E','g','d','k','E','g','m','E','t','E','s','C','t','D','m','A','D','q','F','t','A','F','r','A','t','E','c','C','q','A','E','1','B','o','F','q','C','1','F','1','D','r','F','t','B','m','F'],
  /- tAC2ACnFaoCgADcADcCcFfoFtDlAFgmFqBq2bpEoAEmkqnEeCtAE1bAEqgDfFfCrgEcBrACfAAABqAAB1AAClEnFeCtCgAADqDoB -/ ['t','A','C','2','A','C','n','F','a','o','C','g','A','D','c','A','D','c','C','c','F','f','o','F','t','D','l','A','F','g','m','F','q','B','q','2','b','p','E','o','A','E','m','k','q','n','E','e','C','t','A','E','1','b','A','E','q','g','D','f','F','f','C','r','g','E','c','B','r','A','C','f','A','A','A','B','q','A','A','B','1','A','A','C','l','E','n','F','e','C','t','C','g','A','A','D','q','D','o','B'],
  /- mtAAACbFiAAADsEtBqAB2FsDqpFqEmFsCeDtFlCeDtoEpClEqAAFrAFoCgFmFsFqEnAEcCqFeCtFtEnAEeFtAAEkFnErAABbFkAD -/ ['m','t','A','A','A','C','b','F','i','A','A','A','D','s','E','t','B','q','A','B','2','F','s','D','q','p','F','q','E','m','F','s','C','e','D','t','F','l','C','e','D','t','o','E','p','C','l','E','q','A','A','F','r','A','F','o','C','g','F','m','F','s','F','q','E','n','A','E','c','C','q','F','e','C','t','F','t','E','n','A','E','e','F','t','A','A','E','k','F','n','E','r','A','A','B','b','F','k','A','D'],
  /- nAAeCtFeAfBoAEpFtAABtFqAApDcCGJ -/ ['n','A','A','e','C','t','F','e','A','f','B','o','A','E','p','F','t','A','A','B','t','F','q','A','A','p','D','c','C','G','J']]

/-- the compressed string `qiS` — lunar_ssq.cpp:113-118 -/
def qiS : List (List Char) := [
  /- FrcFs22AFsckF2tsDtFqEtF1posFdFgiFseFtmelpsEfhkF2anmelpFlF1ikrotcnEqEq2FfqmcDsrFor22FgFrcgDscFs22FgEe -/ ['F','r','c','F','s','2','2','A','F','s','c','k','F','2','t','s','D','t','F','q','E','t','F','1','p','o','s','F','d','F','g','i','F','s','e','F','t','m','e','l','p','s','E','f','h','k','F','2','a','n','m','e','l','p','F','l','F','1','i','k','r','o','t','c','n','E','q','E','q','2','F','f','q','m','c','D','s','r','F','o','r','2','2','F','g','F','r','c','g','D','s','c','F','s','2','2','F','g','E','e'],
  /- FtE2sfFs22sCoEsaF2tsD1FpeE2eFsssEciFsFnmelpFcFhkF2tcnEqEpFgkrotcnEqrEtFermcDsrE222FgBmcmr22DaEfnaF22 -/ ['F','t','E','2','s','f','F','s','2','2','s','C','o','E','s','a','F','2','t','s','D','1','F','p','e','E','2','e','F','s','s','s','E','c','i','F','s','F','n','m','e','l','p','F','c','F','h','k','F','2','t','c','n','E','q','E','p','F','g','k','r','o','t','c','n','E','q','r','E','t','F','e','r','m','c','D','s','r','E','2','2','2','F','g','B','m','c','m','r','2','2','D','a','E','f','n','a','F','2','2'],
  /- 2sD1FpeForeF2tssEfiFpEoeFssD1iFstEqFppDgFstcnEqEpFg11FscnEqrAoAF2ClAEsDmDtCtBaDlAFbAEpAAAAAD2FgBiBqo -/ ['2','s','D','1','F','p','e','F','o','r','e','F','2','t','s','s','E','f','i','F','p','E','o','e','F','s','s','D','1','i','F','s','t','E','q','F','p','p','D','g','F','s','t','c','n','E','q','E','p','F','g','1','1','F','s','c','n','E','q','r','A','o','A','F','2','C','l','A','E','s','D','m','D','t','C','t','B','a','D','l','A','F','b','A','E','p','A','A','A','A','A','D','2','F','g','B','i','B','q','o'],
  /- BbnBaBoAAAAAAAEgDqAdBqAFrBaBoACdAAf1AACgAAAeBbCamDgEifAE2AABa1C1BgFdiAAACoCeE1ADiEifDaAEqAAFe1AcFbcA -/ ['B','b','n','B','a','B','o','A','A','A','A','A','A','A','E','g','D','q','A','d','B','q','A','F','r','B','a','B','o','A','C','d','A','A','f','1','A','A','C','g','A','A','A','e','B','b','C','a','m','D','g','E','i','f','A','E','2','A','A','B','a','1','C','1','B','g','F','d','i','A','A','A','C','o','C','e','E','1','A','D','i','E','i','f','D','a','A','E','q','A','A','F','e','1','A','c','F','b','c','A'],
  /- AAAAF1iFaAAACpACmFmAAAAAAAACrDaAAADG0 -/ ['A','A','A','A','F','1','i','F','a','A','A','A','C','p','A','C','m','F','m','A','A','A','A','A','A','A','A','C','r','D','a','A','A','A','D','G','0']]

/-- the 30 replacements of `jieya` in order; `o`..`o6` expanded — lunar_ssq.cpp:119-124, 132-161 -/
def replacements : List (Char × String) := [
  ('J', "00"),
  ('I', "000"),
  ('H', "0000"),
  ('G', "00000"),
  ('t', "02"),
  ('s', "002"),
  ('r', "0002"),
  ('q', "00002"),
  ('p', "000002"),
  ('o', "0000002"),
  ('n', "00000002"),
  ('m', "000000002"),
  ('l', "0000000002"),
  ('k', "01"),
  ('j', "0101"),
  ('i', "001"),
  ('h', "001001"),
  ('g', "0001"),
  ('f', "00001"),
  ('e', "000001"),
  ('d', "0000001"),
  ('c', "00000001"),
  ('b', "000000001"),
  ('a', "0000000001"),
  ('F', "0000000000"),
  ('E', "00000000000000000000"),
  ('D', "000000000000000000000000000000"),
  ('C', "0000000000000000000000000000000000000000"),
  ('B', "00000000000000000000000000000000000000000000000000"),
  ('A', "000000000000000000000000000000000000000000000000000000000000")]

end Verif.Ssq

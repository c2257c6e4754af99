import Verif.Py

/-!
# The water table, cheme_calculations/utility/water_data.py:23-2285

Generated from the text of the file: the decimals as written, one row per temperature, the eleven columns named in
`WATER_PROPERTY_KEYS` (water_data.py:18-20) in that order.  The two columns the code never reads (Joule-Thomson, sound
speed) are left out.
-/

namespace Verif

/-- A table entry. -/
inductive WCell
  | num (q : ℚ)
  | str (s : Sym)
  deriving DecidableEq, Repr

/-- water_data.py:18-20. -/
def waterKeys : List Sym := [c!"Pressure (MPa)", c!"Cp (J/g*K)", c!"Cv (J/g*K)", c!"Density (kg/m3)", c!"Enthalpy (kJ/kg)", c!"Entropy (J/g*K)", c!"Internal Energy (kJ/kg)", c!"Phase", c!"Therm. Cond. (W/m*K)", c!"Viscosity (uPa*s)", c!"Volume (m3/kg)"]

/-- The decimal `m · 10⁻ᵉ`. -/
def dec10 (m e : ℕ) : ℚ := m / 10 ^ e

/-- A decimal table entry. -/
def WCell.d (m e : ℕ) : WCell := .num (dec10 m e)

open WCell (d)

/-- Part 1 of the table. -/
def waterTable1 : List (ℚ × List WCell) := [
  (dec10 2750 1, [d 10132 5, d 42135 4, d 42128 4, d 99994 2, d 78613 4, d 28313 6, d 776 2, .str c!"liquid", d 56029 5, d 16819 1, d 10001 7]),
  (dec10 2850 1, [d 10132 5, d 41924 4, d 41848 4, d 99952 2, d 49877 3, d 17839 5, d 49776 3, .str c!"liquid", d 58259 5, d 12392 1, d 10005 7]),
  (dec10 2950 1, [d 10132 5, d 41829 4, d 41498 4, d 99781 2, d 91747 3, d 32278 5, d 91645 3, .str c!"liquid", d 60124 5, d 95781 2, d 10022 7]),
  (dec10 3050 1, [d 10132 5, d 41795 4, d 41094 4, d 99508 2, d 13355 2, d 46215 5, d 13345 2, .str c!"liquid", d 61716 5, d 76679 2, d 10049 7]),
  (dec10 3150 1, [d 10132 5, d 41796 4, d 40649 4, d 9915 1, d 17535 2, d 59698 5, d 17525 2, .str c!"liquid", d 63087 5, d 63066 2, d 10086 7]),
  (dec10 3250 1, [d 10132 5, d 41819 4, d 40171 4, d 98719 2, d 21715 2, d 72764 5, d 21705 2, .str c!"liquid", d 64267 5, d 52997 2, d 1013 6]),
  (dec10 3350 1, [d 10132 5, d 41858 4, d 39671 4, d 98223 2, d 25899 2, d 85443 5, d 25889 2, .str c!"liquid", d 65274 5, d 4533 1, d 10181 7]),
  (dec10 3450 1, [d 10132 5, d 41912 4, d 39155 4, d 9767 1, d 30088 2, d 97762 5, d 30077 2, .str c!"liquid", d 66121 5, d 39353 2, d 10239 7]),
  (dec10 3550 1, [d 10132 5, d 41982 4, d 38631 4, d 97063 2, d 34282 2, d 10975 4, d 34272 2, .str c!"liquid", d 66817 5, d 34603 2, d 10303 7]),
  (dec10 3650 1, [d 10132 5, d 4207 3, d 38107 4, d 96406 2, d 38484 2, d 12142 4, d 38474 2, .str c!"liquid", d 67371 5, d 30765 2, d 10373 7]),
  (dec10 37312 2, [d 10133 5, d 20799 4, d 15558 4, d 59766 5, d 26755 1, d 73544 4, d 25060 1, .str c!"vapor", d 24568 6, d 12231 3, d 16732 4]),
  (dec10 3750 1, [d 10132 5, d 20716 4, d 15499 4, d 59442 5, d 26794 1, d 73648 4, d 25090 1, .str c!"vapor", d 24723 6, d 12304 3, d 16823 4]),
  (dec10 3850 1, [d 10132 5, d 20388 4, d 15277 4, d 57787 5, d 27000 1, d 74189 4, d 25246 1, .str c!"vapor", d 25558 6, d 12691 3, d 17305 4]),
  (dec10 3950 1, [d 10132 5, d 20174 4, d 15141 4, d 56236 5, d 27202 1, d 74709 4, d 25401 1, .str c!"vapor", d 26403 6, d 13081 3, d 17782 4]),
  (dec10 4050 1, [d 10132 5, d 20024 4, d 15052 4, d 54775 5, d 27403 1, d 75211 4, d 25553 1, .str c!"vapor", d 2726 5, d 13473 3, d 18257 4]),
  (dec10 4150 1, [d 10132 5, d 19918 4, d 14994 4, d 53395 5, d 27603 1, d 75698 4, d 25705 1, .str c!"vapor", d 2813 5, d 13868 3, d 18728 4]),
  (dec10 4250 1, [d 10132 5, d 19845 4, d 14961 4, d 52089 5, d 27802 1, d 76172 4, d 25857 1, .str c!"vapor", d 29012 6, d 14265 3, d 19198 4]),
  (dec10 4350 1, [d 10132 5, d 19796 4, d 14945 4, d 5085 4, d 28000 1, d 76633 4, d 26007 1, .str c!"vapor", d 29907 6, d 14664 3, d 19666 4]),
  (dec10 4450 1, [d 10132 5, d 19767 4, d 14943 4, d 49672 5, d 28198 1, d 77082 4, d 26158 1, .str c!"vapor", d 30815 6, d 15066 3, d 20132 4]),
  (dec10 4550 1, [d 10132 5, d 19754 4, d 14953 4, d 48551 5, d 28395 1, d 77521 4, d 26308 1, .str c!"vapor", d 31736 6, d 15468 3, d 20597 4]),
  (dec10 4650 1, [d 10132 5, d 19752 4, d 14971 4, d 47481 5, d 28593 1, d 77951 4, d 26459 1, .str c!"vapor", d 32669 6, d 15873 3, d 21061 4]),
  (dec10 4750 1, [d 10132 5, d 19761 4, d 14996 4, d 46459 5, d 28790 1, d 78371 4, d 26609 1, .str c!"vapor", d 33615 6, d 16279 3, d 21524 4]),
  (dec10 4850 1, [d 10132 5, d 19778 4, d 15028 4, d 45482 5, d 28988 1, d 78783 4, d 26760 1, .str c!"vapor", d 34574 6, d 16686 3, d 21987 4]),
  (dec10 4950 1, [d 10132 5, d 19802 4, d 15064 4, d 44546 5, d 29186 1, d 79187 4, d 26911 1, .str c!"vapor", d 35545 6, d 17094 3, d 22449 4]),
  (dec10 5050 1, [d 10132 5, d 19831 4, d 15104 4, d 43649 5, d 29384 1, d 79583 4, d 27063 1, .str c!"vapor", d 36528 6, d 17504 3, d 2291 3]),
  (dec10 5150 1, [d 10132 5, d 19865 4, d 15148 4, d 42789 5, d 29583 1, d 79972 4, d 27215 1, .str c!"vapor", d 37523 6, d 17914 3, d 23371 4]),
  (dec10 5250 1, [d 10132 5, d 19903 4, d 15194 4, d 41962 5, d 29782 1, d 80355 4, d 27367 1, .str c!"vapor", d 3853 5, d 18325 3, d 23831 4]),
  (dec10 5350 1, [d 10132 5, d 19945 4, d 15243 4, d 41168 5, d 29981 1, d 80731 4, d 27519 1, .str c!"vapor", d 39548 6, d 18737 3, d 24291 4]),
  (dec10 5450 1, [d 10132 5, d 19989 4, d 15294 4, d 40403 5, d 30180 1, d 811 2, d 27673 1, .str c!"vapor", d 40577 6, d 19149 3, d 2475 3])]

/-- Part 2 of the table. -/
def waterTable2 : List (ℚ × List WCell) := [
  (dec10 5550 1, [d 10132 5, d 20036 4, d 15347 4, d 39667 5, d 30381 1, d 81464 4, d 27826 1, .str c!"vapor", d 41617 6, d 19562 3, d 2521 3]),
  (dec10 5650 1, [d 10132 5, d 20085 4, d 15401 4, d 38958 5, d 30581 1, d 81822 4, d 27980 1, .str c!"vapor", d 42668 6, d 19975 3, d 25669 4]),
  (dec10 5750 1, [d 10132 5, d 20135 4, d 15456 4, d 38274 5, d 30782 1, d 82175 4, d 28135 1, .str c!"vapor", d 43729 6, d 20389 3, d 26127 4]),
  (dec10 5850 1, [d 10132 5, d 20188 4, d 15513 4, d 37614 5, d 30984 1, d 82523 4, d 28290 1, .str c!"vapor", d 448 4, d 20803 3, d 26586 4]),
  (dec10 5950 1, [d 10132 5, d 20242 4, d 15571 4, d 36976 5, d 31186 1, d 82866 4, d 28446 1, .str c!"vapor", d 45882 6, d 21217 3, d 27044 4]),
  (dec10 6050 1, [d 10132 5, d 20297 4, d 1563 3, d 36361 5, d 31389 1, d 83203 4, d 28602 1, .str c!"vapor", d 46973 6, d 21632 3, d 27502 4]),
  (dec10 6150 1, [d 10132 5, d 20353 4, d 15689 4, d 35765 5, d 31592 1, d 83537 4, d 28759 1, .str c!"vapor", d 48073 6, d 22046 3, d 2796 3]),
  (dec10 6250 1, [d 10132 5, d 20411 4, d 1575 3, d 35189 5, d 31796 1, d 83865 4, d 28916 1, .str c!"vapor", d 49183 6, d 2246 2, d 28418 4]),
  (dec10 6350 1, [d 10132 5, d 20469 4, d 15811 4, d 34631 5, d 32000 1, d 8419 3, d 29074 1, .str c!"vapor", d 50302 6, d 22875 3, d 28876 4]),
  (dec10 6450 1, [d 10132 5, d 20528 4, d 15873 4, d 34091 5, d 32205 1, d 8451 3, d 29233 1, .str c!"vapor", d 5143 5, d 23289 3, d 29333 4]),
  (dec10 6550 1, [d 10132 5, d 20588 4, d 15935 4, d 33567 5, d 32411 1, d 84826 4, d 29392 1, .str c!"vapor", d 52566 6, d 23703 3, d 29791 4]),
  (dec10 6650 1, [d 10132 5, d 20649 4, d 15998 4, d 3306 4, d 32617 1, d 85139 4, d 29552 1, .str c!"vapor", d 53711 6, d 24116 3, d 30248 4]),
  (dec10 6750 1, [d 10132 5, d 20711 4, d 16062 4, d 32568 5, d 32824 1, d 85447 4, d 29713 1, .str c!"vapor", d 54865 6, d 2453 2, d 30705 4]),
  (dec10 6850 1, [d 10132 5, d 20773 4, d 16126 4, d 3209 4, d 33031 1, d 85752 4, d 29874 1, .str c!"vapor", d 56026 6, d 24943 3, d 31162 4]),
  (dec10 6950 1, [d 10132 5, d 20836 4, d 1619 3, d 31626 5, d 33239 1, d 86054 4, d 30035 1, .str c!"vapor", d 57195 6, d 25356 3, d 31619 4]),
  (dec10 7050 1, [d 10132 5, d 20899 4, d 16255 4, d 31176 5, d 33448 1, d 86352 4, d 30198 1, .str c!"vapor", d 58373 6, d 25768 3, d 32076 4]),
  (dec10 7150 1, [d 10132 5, d 20963 4, d 16321 4, d 30738 5, d 33657 1, d 86647 4, d 30361 1, .str c!"vapor", d 59557 6, d 2618 2, d 32533 4]),
  (dec10 7250 1, [d 10132 5, d 21028 4, d 16386 4, d 30312 5, d 33867 1, d 86938 4, d 30524 1, .str c!"vapor", d 60749 6, d 26591 3, d 3299 3]),
  (dec10 7350 1, [d 10132 5, d 21093 4, d 16453 4, d 29898 5, d 34078 1, d 87227 4, d 30689 1, .str c!"vapor", d 61948 6, d 27002 3, d 33447 4]),
  (dec10 7450 1, [d 10132 5, d 21158 4, d 16519 4, d 29496 5, d 34289 1, d 87512 4, d 30854 1, .str c!"vapor", d 63155 6, d 27412 3, d 33903 4]),
  (dec10 7550 1, [d 10132 5, d 21224 4, d 16586 4, d 29104 5, d 34501 1, d 87795 4, d 31019 1, .str c!"vapor", d 64368 6, d 27822 3, d 3436 3]),
  (dec10 7650 1, [d 10132 5, d 21291 4, d 16654 4, d 28722 5, d 34713 1, d 88075 4, d 31186 1, .str c!"vapor", d 65588 6, d 28231 3, d 34817 4]),
  (dec10 7750 1, [d 10132 5, d 21357 4, d 16721 4, d 2835 4, d 34927 1, d 88352 4, d 31353 1, .str c!"vapor", d 66814 6, d 28639 3, d 35273 4]),
  (dec10 7850 1, [d 10132 5, d 21424 4, d 16789 4, d 27988 5, d 35141 1, d 88626 4, d 31520 1, .str c!"vapor", d 68047 6, d 29047 3, d 3573 3]),
  (dec10 7950 1, [d 10132 5, d 21492 4, d 16858 4, d 27635 5, d 35355 1, d 88897 4, d 31689 1, .str c!"vapor", d 69287 6, d 29454 3, d 36186 4]),
  (dec10 8050 1, [d 10132 5, d 2156 3, d 16926 4, d 27291 5, d 35570 1, d 89167 4, d 31858 1, .str c!"vapor", d 70532 6, d 2986 2, d 36642 4]),
  (dec10 8150 1, [d 10132 5, d 21628 4, d 16995 4, d 26955 5, d 35786 1, d 89433 4, d 32027 1, .str c!"vapor", d 71784 6, d 30266 3, d 37099 4]),
  (dec10 8250 1, [d 10132 5, d 21696 4, d 17064 4, d 26628 5, d 36003 1, d 89697 4, d 32198 1, .str c!"vapor", d 73041 6, d 3067 2, d 37555 4]),
  (dec10 8350 1, [d 10132 5, d 21765 4, d 17134 4, d 26308 5, d 36220 1, d 89959 4, d 32369 1, .str c!"vapor", d 74304 6, d 31074 3, d 38011 4])]

/-- Part 3 of the table. -/
def waterTable3 : List (ℚ × List WCell) := [
  (dec10 8450 1, [d 10132 5, d 21834 4, d 17203 4, d 25996 5, d 36438 1, d 90219 4, d 32541 1, .str c!"vapor", d 75573 6, d 31478 3, d 38468 4]),
  (dec10 8550 1, [d 10132 5, d 21903 4, d 17273 4, d 25691 5, d 36657 1, d 90476 4, d 32713 1, .str c!"vapor", d 76848 6, d 3188 2, d 38924 4]),
  (dec10 8650 1, [d 10132 5, d 21972 4, d 17343 4, d 25394 5, d 36876 1, d 90731 4, d 32886 1, .str c!"vapor", d 78127 6, d 32282 3, d 3938 3]),
  (dec10 8750 1, [d 10132 5, d 22042 4, d 17413 4, d 25103 5, d 37096 1, d 90984 4, d 33060 1, .str c!"vapor", d 79413 6, d 32682 3, d 39836 4]),
  (dec10 8850 1, [d 10132 5, d 22112 4, d 17483 4, d 24819 5, d 37317 1, d 91235 4, d 33235 1, .str c!"vapor", d 80703 6, d 33082 3, d 40292 4]),
  (dec10 8950 1, [d 10132 5, d 22182 4, d 17554 4, d 24541 5, d 37539 1, d 91484 4, d 33410 1, .str c!"vapor", d 81998 6, d 33481 3, d 40749 4]),
  (dec10 9050 1, [d 10132 5, d 22252 4, d 17624 4, d 24269 5, d 37761 1, d 91731 4, d 33586 1, .str c!"vapor", d 83298 6, d 33879 3, d 41205 4]),
  (dec10 9150 1, [d 10132 5, d 22322 4, d 17695 4, d 24003 5, d 37984 1, d 91975 4, d 33762 1, .str c!"vapor", d 84603 6, d 34277 3, d 41661 4]),
  (dec10 9250 1, [d 10132 5, d 22392 4, d 17766 4, d 23744 5, d 38207 1, d 92218 4, d 33940 1, .str c!"vapor", d 85913 6, d 34673 3, d 42117 4]),
  (dec10 9350 1, [d 10132 5, d 22463 4, d 17837 4, d 23489 5, d 38432 1, d 9246 3, d 34118 1, .str c!"vapor", d 87228 6, d 35068 3, d 42573 4]),
  (dec10 9450 1, [d 10132 5, d 22533 4, d 17907 4, d 2324 4, d 38657 1, d 92699 4, d 34297 1, .str c!"vapor", d 88547 6, d 35463 3, d 43029 4]),
  (dec10 9550 1, [d 10132 5, d 22604 4, d 17978 4, d 22997 5, d 38882 1, d 92937 4, d 34476 1, .str c!"vapor", d 8987 5, d 35856 3, d 43485 4]),
  (dec10 9650 1, [d 10132 5, d 22674 4, d 18049 4, d 22758 5, d 39109 1, d 93172 4, d 34656 1, .str c!"vapor", d 91198 6, d 36249 3, d 43941 4]),
  (dec10 9750 1, [d 10132 5, d 22745 4, d 1812 3, d 22524 5, d 39336 1, d 93406 4, d 34837 1, .str c!"vapor", d 9253 5, d 3664 2, d 44397 4]),
  (dec10 9850 1, [d 10132 5, d 22815 4, d 18191 4, d 22295 5, d 39563 1, d 93639 4, d 35019 1, .str c!"vapor", d 93866 6, d 37031 3, d 44853 4]),
  (dec10 9950 1, [d 10132 5, d 22886 4, d 18262 4, d 22071 5, d 39792 1, d 9387 3, d 35201 1, .str c!"vapor", d 95206 6, d 37421 3, d 45309 4]),
  (dec10 10050 1, [d 10132 5, d 22956 4, d 18333 4, d 21851 5, d 40021 1, d 94099 4, d 35384 1, .str c!"vapor", d 96551 6, d 37809 3, d 45764 4]),
  (dec10 10150 1, [d 10132 5, d 23027 4, d 18403 4, d 21635 5, d 40251 1, d 94327 4, d 35568 1, .str c!"vapor", d 97899 6, d 38197 3, d 4622 3]),
  (dec10 10250 1, [d 10132 5, d 23097 4, d 18474 4, d 21424 5, d 40482 1, d 94553 4, d 35752 1, .str c!"vapor", d 9925 5, d 38584 3, d 46676 4]),
  (dec10 10350 1, [d 10132 5, d 23167 4, d 18544 4, d 21217 5, d 40713 1, d 94777 4, d 35937 1, .str c!"vapor", d 10061 5, d 3897 2, d 47132 4]),
  (dec10 10450 1, [d 10132 5, d 23238 4, d 18615 4, d 21014 5, d 40945 1, d 95 1, d 36123 1, .str c!"vapor", d 10197 5, d 39355 3, d 47588 4]),
  (dec10 10550 1, [d 10132 5, d 23308 4, d 18685 4, d 20814 5, d 41178 1, d 95222 4, d 36310 1, .str c!"vapor", d 10333 5, d 39738 3, d 48044 4]),
  (dec10 10650 1, [d 10132 5, d 23378 4, d 18755 4, d 20619 5, d 41411 1, d 95442 4, d 36497 1, .str c!"vapor", d 10469 5, d 40121 3, d 485 2]),
  (dec10 10750 1, [d 10132 5, d 23447 4, d 18825 4, d 20427 5, d 41645 1, d 95661 4, d 36685 1, .str c!"vapor", d 10606 5, d 40503 3, d 48956 4]),
  (dec10 10850 1, [d 10132 5, d 23517 4, d 18895 4, d 20238 5, d 41880 1, d 95878 4, d 36874 1, .str c!"vapor", d 10744 5, d 40884 3, d 49411 4]),
  (dec10 10950 1, [d 10132 5, d 23587 4, d 18965 4, d 20053 5, d 42116 1, d 96095 4, d 37063 1, .str c!"vapor", d 10881 5, d 41264 3, d 49867 4]),
  (dec10 11050 1, [d 10132 5, d 23656 4, d 19034 4, d 19872 5, d 42352 1, d 96309 4, d 37253 1, .str c!"vapor", d 11019 5, d 41643 3, d 50323 4]),
  (dec10 11150 1, [d 10132 5, d 23725 4, d 19104 4, d 19693 5, d 42589 1, d 96523 4, d 37444 1, .str c!"vapor", d 11157 5, d 42021 3, d 50779 4]),
  (dec10 11250 1, [d 10132 5, d 23794 4, d 19173 4, d 19518 5, d 42826 1, d 96735 4, d 37635 1, .str c!"vapor", d 11296 5, d 42397 3, d 51235 4])]

/-- Part 4 of the table. -/
def waterTable4 : List (ℚ × List WCell) := [
  (dec10 11350 1, [d 10132 5, d 23862 4, d 19242 4, d 19346 5, d 43065 1, d 96946 4, d 37827 1, .str c!"vapor", d 11435 5, d 42773 3, d 5169 3]),
  (dec10 11450 1, [d 10132 5, d 23931 4, d 1931 3, d 19177 5, d 43304 1, d 97155 4, d 38020 1, .str c!"vapor", d 11574 5, d 43148 3, d 52146 4]),
  (dec10 11550 1, [d 10132 5, d 23999 4, d 19378 4, d 19011 5, d 43543 1, d 97364 4, d 38213 1, .str c!"vapor", d 11713 5, d 43522 3, d 52602 4]),
  (dec10 11650 1, [d 10132 5, d 24067 4, d 19446 4, d 18847 5, d 43784 1, d 97571 4, d 38408 1, .str c!"vapor", d 11853 5, d 43895 3, d 53058 4]),
  (dec10 11750 1, [d 10132 5, d 24135 4, d 19514 4, d 18687 5, d 44025 1, d 97777 4, d 38602 1, .str c!"vapor", d 11993 5, d 44267 3, d 53513 4]),
  (dec10 11850 1, [d 10132 5, d 24202 4, d 19582 4, d 18529 5, d 44266 1, d 97982 4, d 38798 1, .str c!"vapor", d 12133 5, d 44638 3, d 53969 4]),
  (dec10 11950 1, [d 10132 5, d 24269 4, d 19649 4, d 18374 5, d 44509 1, d 98185 4, d 38994 1, .str c!"vapor", d 12274 5, d 45008 3, d 54425 4]),
  (dec10 12050 1, [d 10132 5, d 24336 4, d 19716 4, d 18221 5, d 44752 1, d 98388 4, d 39191 1, .str c!"vapor", d 12414 5, d 45376 3, d 5488 3]),
  (dec10 12150 1, [d 10132 5, d 24402 4, d 19783 4, d 18071 5, d 44995 1, d 98589 4, d 39388 1, .str c!"vapor", d 12555 5, d 45744 3, d 55336 4]),
  (dec10 12250 1, [d 10132 5, d 24469 4, d 19849 4, d 17924 5, d 45240 1, d 9879 3, d 39587 1, .str c!"vapor", d 12697 5, d 46111 3, d 55792 4]),
  (dec10 12350 1, [d 10132 5, d 24534 4, d 19915 4, d 17779 5, d 45485 1, d 98989 4, d 39786 1, .str c!"vapor", d 12838 5, d 46477 3, d 56248 4]),
  (dec10 12450 1, [d 10132 5, d 246 2, d 1998 3, d 17636 5, d 45730 1, d 99187 4, d 39985 1, .str c!"vapor", d 1298 4, d 46842 3, d 56703 4]),
  (dec10 12550 1, [d 10132 5, d 24665 4, d 20046 4, d 17495 5, d 45977 1, d 99384 4, d 40185 1, .str c!"vapor", d 13122 5, d 47206 3, d 57159 4]),
  (dec10 12650 1, [d 10132 5, d 2473 3, d 20111 4, d 17357 5, d 46224 1, d 9958 3, d 40386 1, .str c!"vapor", d 13264 5, d 47569 3, d 57615 4]),
  (dec10 12750 1, [d 10132 5, d 24794 4, d 20175 4, d 1722 4, d 46471 1, d 99775 4, d 40587 1, .str c!"vapor", d 13406 5, d 47931 3, d 5807 3]),
  (dec10 12850 1, [d 10132 5, d 24858 4, d 20239 4, d 17086 5, d 46720 1, d 99969 4, d 40789 1, .str c!"vapor", d 13549 5, d 48292 3, d 58526 4]),
  (dec10 12950 1, [d 10132 5, d 24922 4, d 20303 4, d 16954 5, d 46969 1, d 10016 3, d 40992 1, .str c!"vapor", d 13691 5, d 48652 3, d 58982 4]),
  (dec10 13050 1, [d 10132 5, d 24986 4, d 20367 4, d 16824 5, d 47218 1, d 10035 3, d 41196 1, .str c!"vapor", d 13834 5, d 49011 3, d 59437 4]),
  (dec10 13150 1, [d 10132 5, d 25049 4, d 2043 3, d 16696 5, d 47468 1, d 10054 3, d 41400 1, .str c!"vapor", d 13977 5, d 49369 3, d 59893 4]),
  (dec10 13250 1, [d 10132 5, d 25111 4, d 20493 4, d 1657 4, d 47719 1, d 10073 3, d 41604 1, .str c!"vapor", d 14121 5, d 49726 3, d 60349 4]),
  (dec10 13350 1, [d 10132 5, d 25174 4, d 20555 4, d 16446 5, d 47970 1, d 10092 3, d 41809 1, .str c!"vapor", d 14264 5, d 50082 3, d 60804 4]),
  (dec10 13450 1, [d 10132 5, d 25235 4, d 20617 4, d 16324 5, d 48223 1, d 10111 3, d 42015 1, .str c!"vapor", d 14408 5, d 50437 3, d 6126 3]),
  (dec10 13550 1, [d 10132 5, d 25297 4, d 20678 4, d 16203 5, d 48475 1, d 1013 2, d 42222 1, .str c!"vapor", .str c!"undefined", .str c!"undefined", d 61716 4]),
  (dec10 13650 1, [d 10132 5, d 25358 4, d 2074 3, d 16085 5, d 48728 1, d 10149 3, d 42429 1, .str c!"vapor", .str c!"undefined", .str c!"undefined", d 62171 4]),
  (dec10 13750 1, [d 10132 5, d 25419 4, d 208 2, d 15968 5, d 48982 1, d 10167 3, d 42637 1, .str c!"vapor", .str c!"undefined", .str c!"undefined", d 62627 4]),
  (dec10 13850 1, [d 10132 5, d 25479 4, d 20861 4, d 15852 5, d 49237 1, d 10186 3, d 42845 1, .str c!"vapor", .str c!"undefined", .str c!"undefined", d 63083 4]),
  (dec10 13950 1, [d 10132 5, d 25539 4, d 20921 4, d 15739 5, d 49492 1, d 10204 3, d 43054 1, .str c!"vapor", .str c!"undefined", .str c!"undefined", d 63538 4]),
  (dec10 14050 1, [d 10132 5, d 25598 4, d 2098 3, d 15626 5, d 49748 1, d 10222 3, d 43263 1, .str c!"vapor", .str c!"undefined", .str c!"undefined", d 63994 4]),
  (dec10 14150 1, [d 10132 5, d 25657 4, d 21039 4, d 15516 5, d 50004 1, d 1024 2, d 43474 1, .str c!"vapor", .str c!"undefined", .str c!"undefined", d 6445 3])]

/-- Part 5 of the table. -/
def waterTable5 : List (ℚ × List WCell) := [
  (dec10 14250 1, [d 10132 5, d 25716 4, d 21098 4, d 15407 5, d 50261 1, d 10258 3, d 43684 1, .str c!"vapor", .str c!"undefined", .str c!"undefined", d 64905 4]),
  (dec10 14350 1, [d 10132 5, d 25774 4, d 21156 4, d 153 3, d 50518 1, d 10276 3, d 43896 1, .str c!"vapor", .str c!"undefined", .str c!"undefined", d 65361 4]),
  (dec10 14450 1, [d 10132 5, d 25832 4, d 21214 4, d 15194 5, d 50776 1, d 10294 3, d 44107 1, .str c!"vapor", .str c!"undefined", .str c!"undefined", d 65816 4]),
  (dec10 14550 1, [d 10132 5, d 25889 4, d 21272 4, d 15089 5, d 51035 1, d 10312 3, d 44320 1, .str c!"vapor", .str c!"undefined", .str c!"undefined", d 66272 4]),
  (dec10 14650 1, [d 10132 5, d 25946 4, d 21329 4, d 14986 5, d 51294 1, d 1033 2, d 44533 1, .str c!"vapor", .str c!"undefined", .str c!"undefined", d 66728 4]),
  (dec10 14750 1, [d 10132 5, d 26003 4, d 21385 4, d 14885 5, d 51554 1, d 10348 3, d 44746 1, .str c!"vapor", .str c!"undefined", .str c!"undefined", d 67183 4]),
  (dec10 14850 1, [d 10132 5, d 26059 4, d 21442 4, d 14784 5, d 51814 1, d 10365 3, d 44961 1, .str c!"vapor", .str c!"undefined", .str c!"undefined", d 67639 4]),
  (dec10 14950 1, [d 10132 5, d 26115 4, d 21497 4, d 14685 5, d 52075 1, d 10383 3, d 45175 1, .str c!"vapor", .str c!"undefined", .str c!"undefined", d 68094 4]),
  (dec10 15050 1, [d 10132 5, d 2617 3, d 21553 4, d 14588 5, d 52336 1, d 104 1, d 45391 1, .str c!"vapor", .str c!"undefined", .str c!"undefined", d 6855 3]),
  (dec10 15150 1, [d 10132 5, d 26225 4, d 21608 4, d 14492 5, d 52598 1, d 10417 3, d 45606 1, .str c!"vapor", .str c!"undefined", .str c!"undefined", d 69006 4]),
  (dec10 15250 1, [d 10132 5, d 2628 3, d 21662 4, d 14397 5, d 52861 1, d 10435 3, d 45823 1, .str c!"vapor", .str c!"undefined", .str c!"undefined", d 69461 4]),
  (dec10 15350 1, [d 10132 5, d 26334 4, d 21716 4, d 14303 5, d 53124 1, d 10452 3, d 46040 1, .str c!"vapor", .str c!"undefined", .str c!"undefined", d 69917 4]),
  (dec10 15450 1, [d 10132 5, d 26387 4, d 2177 3, d 1421 4, d 53388 1, d 10469 3, d 46257 1, .str c!"vapor", .str c!"undefined", .str c!"undefined", d 70372 4]),
  (dec10 15550 1, [d 10132 5, d 26441 4, d 21823 4, d 14119 5, d 53652 1, d 10486 3, d 46475 1, .str c!"vapor", .str c!"undefined", .str c!"undefined", d 70828 4]),
  (dec10 15650 1, [d 10132 5, d 26493 4, d 21876 4, d 14028 5, d 53916 1, d 10503 3, d 46694 1, .str c!"vapor", .str c!"undefined", .str c!"undefined", d 71284 4]),
  (dec10 15750 1, [d 10132 5, d 26546 4, d 21928 4, d 13939 5, d 54182 1, d 1052 2, d 46913 1, .str c!"vapor", .str c!"undefined", .str c!"undefined", d 71739 4]),
  (dec10 15850 1, [d 10132 5, d 26598 4, d 2198 3, d 13851 5, d 54447 1, d 10537 3, d 47132 1, .str c!"vapor", .str c!"undefined", .str c!"undefined", d 72195 4]),
  (dec10 15950 1, [d 10132 5, d 26649 4, d 22032 4, d 13765 5, d 54714 1, d 10553 3, d 47352 1, .str c!"vapor", .str c!"undefined", .str c!"undefined", d 7265 3]),
  (dec10 16050 1, [d 10132 5, d 267 2, d 22083 4, d 13679 5, d 54980 1, d 1057 2, d 47573 1, .str c!"vapor", .str c!"undefined", .str c!"undefined", d 73106 4]),
  (dec10 16150 1, [d 10132 5, d 26751 4, d 22134 4, d 13594 5, d 55248 1, d 10587 3, d 47794 1, .str c!"vapor", .str c!"undefined", .str c!"undefined", d 73561 4]),
  (dec10 16250 1, [d 10132 5, d 26801 4, d 22184 4, d 1351 4, d 55515 1, d 10603 3, d 48016 1, .str c!"vapor", .str c!"undefined", .str c!"undefined", d 74017 4]),
  (dec10 16350 1, [d 10132 5, d 26851 4, d 22234 4, d 13428 5, d 55784 1, d 1062 2, d 48238 1, .str c!"vapor", .str c!"undefined", .str c!"undefined", d 74473 4]),
  (dec10 16450 1, [d 10132 5, d 26901 4, d 22284 4, d 13346 5, d 56052 1, d 10636 3, d 48460 1, .str c!"vapor", .str c!"undefined", .str c!"undefined", d 74928 4]),
  (dec10 16550 1, [d 10132 5, d 2695 3, d 22333 4, d 13265 5, d 56322 1, d 10652 3, d 48683 1, .str c!"vapor", .str c!"undefined", .str c!"undefined", d 75384 4]),
  (dec10 16650 1, [d 10132 5, d 26998 4, d 22382 4, d 13186 5, d 56591 1, d 10669 3, d 48907 1, .str c!"vapor", .str c!"undefined", .str c!"undefined", d 75839 4]),
  (dec10 16750 1, [d 10132 5, d 27047 4, d 2243 3, d 13107 5, d 56862 1, d 10685 3, d 49131 1, .str c!"vapor", .str c!"undefined", .str c!"undefined", d 76295 4]),
  (dec10 16850 1, [d 10132 5, d 27095 4, d 22478 4, d 13029 5, d 57132 1, d 10701 3, d 49355 1, .str c!"vapor", .str c!"undefined", .str c!"undefined", d 7675 3]),
  (dec10 16950 1, [d 10132 5, d 27142 4, d 22525 4, d 12952 5, d 57403 1, d 10717 3, d 49581 1, .str c!"vapor", .str c!"undefined", .str c!"undefined", d 77206 4]),
  (dec10 17050 1, [d 10132 5, d 27189 4, d 22572 4, d 12876 5, d 57675 1, d 10733 3, d 49806 1, .str c!"vapor", .str c!"undefined", .str c!"undefined", d 77662 4])]

/-- Part 6 of the table. -/
def waterTable6 : List (ℚ × List WCell) := [
  (dec10 17150 1, [d 10132 5, d 27236 4, d 22619 4, d 12801 5, d 57947 1, d 10749 3, d 50032 1, .str c!"vapor", .str c!"undefined", .str c!"undefined", d 78117 4]),
  (dec10 17250 1, [d 10132 5, d 27282 4, d 22665 4, d 12727 5, d 58220 1, d 10765 3, d 50258 1, .str c!"vapor", .str c!"undefined", .str c!"undefined", d 78573 4]),
  (dec10 17350 1, [d 10132 5, d 27328 4, d 22711 4, d 12654 5, d 58493 1, d 10781 3, d 50485 1, .str c!"vapor", .str c!"undefined", .str c!"undefined", d 79028 4]),
  (dec10 17450 1, [d 10132 5, d 27374 4, d 22757 4, d 12581 5, d 58766 1, d 10796 3, d 50713 1, .str c!"vapor", .str c!"undefined", .str c!"undefined", d 79484 4]),
  (dec10 17550 1, [d 10132 5, d 27419 4, d 22802 4, d 12509 5, d 59040 1, d 10812 3, d 50940 1, .str c!"vapor", .str c!"undefined", .str c!"undefined", d 79939 4]),
  (dec10 17650 1, [d 10132 5, d 27463 4, d 22847 4, d 12439 5, d 59315 1, d 10828 3, d 51169 1, .str c!"vapor", .str c!"undefined", .str c!"undefined", d 80395 4]),
  (dec10 17750 1, [d 10132 5, d 27508 4, d 22891 4, d 12369 5, d 59590 1, d 10843 3, d 51397 1, .str c!"vapor", .str c!"undefined", .str c!"undefined", d 80851 4]),
  (dec10 17850 1, [d 10132 5, d 27552 4, d 22935 4, d 12299 5, d 59865 1, d 10859 3, d 51627 1, .str c!"vapor", .str c!"undefined", .str c!"undefined", d 81306 4]),
  (dec10 17950 1, [d 10132 5, d 27595 4, d 22979 4, d 12231 5, d 60141 1, d 10874 3, d 51856 1, .str c!"vapor", .str c!"undefined", .str c!"undefined", d 81762 4]),
  (dec10 18050 1, [d 10132 5, d 27639 4, d 23022 4, d 12163 5, d 60417 1, d 10889 3, d 52086 1, .str c!"vapor", .str c!"undefined", .str c!"undefined", d 82217 4]),
  (dec10 18150 1, [d 10132 5, d 27681 4, d 23065 4, d 12096 5, d 60693 1, d 10905 3, d 52317 1, .str c!"vapor", .str c!"undefined", .str c!"undefined", d 82673 4]),
  (dec10 18250 1, [d 10132 5, d 27724 4, d 23107 4, d 1203 4, d 60970 1, d 1092 2, d 52547 1, .str c!"vapor", .str c!"undefined", .str c!"undefined", d 83128 4]),
  (dec10 18350 1, [d 10132 5, d 27766 4, d 2315 3, d 11964 5, d 61248 1, d 10935 3, d 52779 1, .str c!"vapor", .str c!"undefined", .str c!"undefined", d 83584 4]),
  (dec10 18450 1, [d 10132 5, d 27808 4, d 23191 4, d 11899 5, d 61526 1, d 1095 2, d 53010 1, .str c!"vapor", .str c!"undefined", .str c!"undefined", d 84039 4]),
  (dec10 18550 1, [d 10132 5, d 27849 4, d 23233 4, d 11835 5, d 61804 1, d 10965 3, d 53243 1, .str c!"vapor", .str c!"undefined", .str c!"undefined", d 84495 4]),
  (dec10 18650 1, [d 10132 5, d 2789 3, d 23274 4, d 11772 5, d 62083 1, d 1098 2, d 53475 1, .str c!"vapor", .str c!"undefined", .str c!"undefined", d 8495 3]),
  (dec10 18750 1, [d 10132 5, d 27931 4, d 23315 4, d 11709 5, d 62362 1, d 10995 3, d 53708 1, .str c!"vapor", .str c!"undefined", .str c!"undefined", d 85406 4]),
  (dec10 18850 1, [d 10132 5, d 27971 4, d 23355 4, d 11647 5, d 62641 1, d 1101 2, d 53941 1, .str c!"vapor", .str c!"undefined", .str c!"undefined", d 85862 4]),
  (dec10 18950 1, [d 10132 5, d 28011 4, d 23395 4, d 11585 5, d 62921 1, d 11025 3, d 54175 1, .str c!"vapor", .str c!"undefined", .str c!"undefined", d 86317 4]),
  (dec10 19050 1, [d 10132 5, d 28051 4, d 23435 4, d 11524 5, d 63202 1, d 11039 3, d 54409 1, .str c!"vapor", .str c!"undefined", .str c!"undefined", d 86773 4]),
  (dec10 19150 1, [d 10132 5, d 2809 3, d 23474 4, d 11464 5, d 63482 1, d 11054 3, d 54644 1, .str c!"vapor", .str c!"undefined", .str c!"undefined", d 87228 4]),
  (dec10 19250 1, [d 10132 5, d 28129 4, d 23513 4, d 11405 5, d 63763 1, d 11069 3, d 54879 1, .str c!"vapor", .str c!"undefined", .str c!"undefined", d 87684 4]),
  (dec10 19350 1, [d 10132 5, d 28168 4, d 23552 4, d 11346 5, d 64045 1, d 11083 3, d 55114 1, .str c!"vapor", .str c!"undefined", .str c!"undefined", d 88139 4]),
  (dec10 19450 1, [d 10132 5, d 28206 4, d 2359 3, d 11287 5, d 64327 1, d 11098 3, d 55350 1, .str c!"vapor", .str c!"undefined", .str c!"undefined", d 88595 4]),
  (dec10 19550 1, [d 10132 5, d 28244 4, d 23628 4, d 1123 4, d 64609 1, d 11112 3, d 55586 1, .str c!"vapor", .str c!"undefined", .str c!"undefined", d 8905 3]),
  (dec10 19650 1, [d 10132 5, d 28282 4, d 23665 4, d 11172 5, d 64892 1, d 11127 3, d 55822 1, .str c!"vapor", .str c!"undefined", .str c!"undefined", d 89506 4]),
  (dec10 19750 1, [d 10132 5, d 28319 4, d 23703 4, d 11116 5, d 65175 1, d 11141 3, d 56059 1, .str c!"vapor", .str c!"undefined", .str c!"undefined", d 89961 4]),
  (dec10 19850 1, [d 10132 5, d 28356 4, d 2374 3, d 1106 4, d 65458 1, d 11155 3, d 56296 1, .str c!"vapor", .str c!"undefined", .str c!"undefined", d 90417 4]),
  (dec10 19950 1, [d 10132 5, d 28393 4, d 23776 4, d 11004 5, d 65742 1, d 1117 2, d 56534 1, .str c!"vapor", .str c!"undefined", .str c!"undefined", d 90872 4])]

/-- water_data.py:24-2285 `WATER_PROPERTIES`. -/
def waterTable : List (ℚ × List WCell) :=
  waterTable1 ++ waterTable2 ++ waterTable3 ++ waterTable4 ++ waterTable5 ++ waterTable6

end Verif

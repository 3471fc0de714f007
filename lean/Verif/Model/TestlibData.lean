import Verif.Model.TestlibText

/-!
# The texts of the functions in tests/testlib/{Monomial,Chebyshev,Quadratic,MyFunc,MyPieceWiseFunc}.hh

Generated by tools/gen_testlib.py from the C++ source, verbatim: the expression each `eval` returns, and the strings `csrc`, `sym` and
`latex` return. The classes of a basis set do not set their names.
-/

namespace Verif.Testlib

/-- Monomial.hh:10-30, class `Monomial_0`. -/
def Monomial_0 : ClassText := ⟨"", chars!"1.0", chars!"1.0", chars!"1", chars!"1"⟩
/-- Monomial.hh:39-59, class `Monomial_1`. -/
def Monomial_1 : ClassText := ⟨"", chars!"var", chars!"var", chars!"x", chars!"x"⟩
/-- Monomial.hh:68-88, class `Monomial_2`. -/
def Monomial_2 : ClassText := ⟨"", chars!"(var*var)", chars!"(var*var)", chars!"x^2", chars!"x^{2}"⟩
/-- Monomial.hh:97-117, class `Monomial_3`. -/
def Monomial_3 : ClassText := ⟨"", chars!"(var*var*var)", chars!"(var*var*var)", chars!"x^3", chars!"x^{3}"⟩
/-- Monomial.hh:126-146, class `Monomial_4`. -/
def Monomial_4 : ClassText := ⟨"", chars!"((var*var)*(var*var))", chars!"((var*var)*(var*var))", chars!"x^4", chars!"x^{4}"⟩
/-- Monomial.hh:155-175, class `Monomial_5`. -/
def Monomial_5 : ClassText := ⟨"", chars!"(var*(var*var)*(var*var))", chars!"(var*(var*var)*(var*var))", chars!"x^5", chars!"x^{5}"⟩
/-- Monomial.hh:184-204, class `Monomial_6`. -/
def Monomial_6 : ClassText := ⟨"", chars!"((var*var*var)*(var*var*var))", chars!"((var*var*var)*(var*var*var))", chars!"x^6", chars!"x^{6}"⟩
/-- Monomial.hh:213-233, class `Monomial_7`. -/
def Monomial_7 : ClassText := ⟨"", chars!"(var*(var*var*var)*(var*var*var))", chars!"(var*(var*var*var)*(var*var*var))", chars!"x^7", chars!"x^{7}"⟩
/-- Monomial.hh:242-262, class `Monomial_8`. -/
def Monomial_8 : ClassText := ⟨"", chars!"(((var*var)*(var*var))*((var*var)*(var*var)))", chars!"(((var*var)*(var*var))*((var*var)*(var*var)))", chars!"x^8", chars!"x^{8}"⟩
/-- Monomial.hh:271-291, class `Monomial_9`. -/
def Monomial_9 : ClassText := ⟨"", chars!"(var*((var*var)*(var*var))*((var*var)*(var*var)))", chars!"(var*((var*var)*(var*var))*((var*var)*(var*var)))", chars!"x^9", chars!"x^{9}"⟩
/-- Monomial.hh:300-320, class `Monomial_10`. -/
def Monomial_10 : ClassText := ⟨"", chars!"((var*(var*var)*(var*var))*(var*(var*var)*(var*var)))", chars!"((var*(var*var)*(var*var))*(var*(var*var)*(var*var)))", chars!"x^10", chars!"x^{10}"⟩
/-- Monomial.hh:329-349, class `Monomial_11`. -/
def Monomial_11 : ClassText := ⟨"", chars!"(var*(var*(var*var)*(var*var))*(var*(var*var)*(var*var)))", chars!"(var*(var*(var*var)*(var*var))*(var*(var*var)*(var*var)))", chars!"x^11", chars!"x^{11}"⟩
/-- Monomial.hh:358-378, class `Monomial_12`. -/
def Monomial_12 : ClassText := ⟨"", chars!"(((var*var*var)*(var*var*var))*((var*var*var)*(var*var*var)))", chars!"(((var*var*var)*(var*var*var))*((var*var*var)*(var*var*var)))", chars!"x^12", chars!"x^{12}"⟩
/-- Monomial.hh:387-407, class `Monomial_13`. -/
def Monomial_13 : ClassText := ⟨"", chars!"(var*((var*var*var)*(var*var*var))*((var*var*var)*(var*var*var)))", chars!"(var*((var*var*var)*(var*var*var))*((var*var*var)*(var*var*var)))", chars!"x^13", chars!"x^{13}"⟩
/-- Monomial.hh:416-436, class `Monomial_14`. -/
def Monomial_14 : ClassText := ⟨"", chars!"((var*(var*var*var)*(var*var*var))*(var*(var*var*var)*(var*var*var)))", chars!"((var*(var*var*var)*(var*var*var))*(var*(var*var*var)*(var*var*var)))", chars!"x^14", chars!"x^{14}"⟩
/-- Monomial.hh:445-465, class `Monomial_15`. -/
def Monomial_15 : ClassText := ⟨"", chars!"(var*(var*(var*var*var)*(var*var*var))*(var*(var*var*var)*(var*var*var)))", chars!"(var*(var*(var*var*var)*(var*var*var))*(var*(var*var*var)*(var*var*var)))", chars!"x^15", chars!"x^{15}"⟩
/-- Monomial.hh:474-494, class `Monomial_16`. -/
def Monomial_16 : ClassText := ⟨"", chars!"((((var*var)*(var*var))*((var*var)*(var*var)))*(((var*var)*(var*var))*((var*var)*(var*var))))", chars!"((((var*var)*(var*var))*((var*var)*(var*var)))*(((var*var)*(var*var))*((var*var)*(var*var))))", chars!"x^16", chars!"x^{16}"⟩
/-- Monomial.hh:503-523, class `Monomial_17`. -/
def Monomial_17 : ClassText := ⟨"", chars!"(var*(((var*var)*(var*var))*((var*var)*(var*var)))*(((var*var)*(var*var))*((var*var)*(var*var))))", chars!"(var*(((var*var)*(var*var))*((var*var)*(var*var)))*(((var*var)*(var*var))*((var*var)*(var*var))))", chars!"x^17", chars!"x^{17}"⟩
/-- Monomial.hh:532-552, class `Monomial_18`. -/
def Monomial_18 : ClassText := ⟨"", chars!"((var*((var*var)*(var*var))*((var*var)*(var*var)))*(var*((var*var)*(var*var))*((var*var)*(var*var))))", chars!"((var*((var*var)*(var*var))*((var*var)*(var*var)))*(var*((var*var)*(var*var))*((var*var)*(var*var))))", chars!"x^18", chars!"x^{18}"⟩
/-- Monomial.hh:561-581, class `Monomial_19`. -/
def Monomial_19 : ClassText := ⟨"", chars!"(var*(var*((var*var)*(var*var))*((var*var)*(var*var)))*(var*((var*var)*(var*var))*((var*var)*(var*var))))", chars!"(var*(var*((var*var)*(var*var))*((var*var)*(var*var)))*(var*((var*var)*(var*var))*((var*var)*(var*var))))", chars!"x^19", chars!"x^{19}"⟩
/-- Monomial.hh:590-610, class `Monomial_20`. -/
def Monomial_20 : ClassText := ⟨"", chars!"(((var*(var*var)*(var*var))*(var*(var*var)*(var*var)))*((var*(var*var)*(var*var))*(var*(var*var)*(var*var))))", chars!"(((var*(var*var)*(var*var))*(var*(var*var)*(var*var)))*((var*(var*var)*(var*var))*(var*(var*var)*(var*var))))", chars!"x^20", chars!"x^{20}"⟩
/-- Monomial.hh:619-639, class `Monomial_21`. -/
def Monomial_21 : ClassText := ⟨"", chars!"(var*((var*(var*var)*(var*var))*(var*(var*var)*(var*var)))*((var*(var*var)*(var*var))*(var*(var*var)*(var*var))))", chars!"(var*((var*(var*var)*(var*var))*(var*(var*var)*(var*var)))*((var*(var*var)*(var*var))*(var*(var*var)*(var*var))))", chars!"x^21", chars!"x^{21}"⟩
/-- Monomial.hh:648-668, class `Monomial_22`. -/
def Monomial_22 : ClassText := ⟨"", chars!"((var*(var*(var*var)*(var*var))*(var*(var*var)*(var*var)))*(var*(var*(var*var)*(var*var))*(var*(var*var)*(var*var))))", chars!"((var*(var*(var*var)*(var*var))*(var*(var*var)*(var*var)))*(var*(var*(var*var)*(var*var))*(var*(var*var)*(var*var))))", chars!"x^22", chars!"x^{22}"⟩
/-- Monomial.hh:677-697, class `Monomial_23`. -/
def Monomial_23 : ClassText := ⟨"", chars!"(var*(var*(var*(var*var)*(var*var))*(var*(var*var)*(var*var)))*(var*(var*(var*var)*(var*var))*(var*(var*var)*(var*var))))", chars!"(var*(var*(var*(var*var)*(var*var))*(var*(var*var)*(var*var)))*(var*(var*(var*var)*(var*var))*(var*(var*var)*(var*var))))", chars!"x^23", chars!"x^{23}"⟩
/-- Monomial.hh:706-726, class `Monomial_24`. -/
def Monomial_24 : ClassText := ⟨"", chars!"((((var*var*var)*(var*var*var))*((var*var*var)*(var*var*var)))*(((var*var*var)*(var*var*var))*((var*var*var)*(var*var*var))))", chars!"((((var*var*var)*(var*var*var))*((var*var*var)*(var*var*var)))*(((var*var*var)*(var*var*var))*((var*var*var)*(var*var*var))))", chars!"x^24", chars!"x^{24}"⟩
/-- Monomial.hh:735-755, class `Monomial_25`. -/
def Monomial_25 : ClassText := ⟨"", chars!"(var*(((var*var*var)*(var*var*var))*((var*var*var)*(var*var*var)))*(((var*var*var)*(var*var*var))*((var*var*var)*(var*var*var))))", chars!"(var*(((var*var*var)*(var*var*var))*((var*var*var)*(var*var*var)))*(((var*var*var)*(var*var*var))*((var*var*var)*(var*var*var))))", chars!"x^25", chars!"x^{25}"⟩
/-- Monomial.hh:764-784, class `Monomial_26`. -/
def Monomial_26 : ClassText := ⟨"", chars!"((var*((var*var*var)*(var*var*var))*((var*var*var)*(var*var*var)))*(var*((var*var*var)*(var*var*var))*((var*var*var)*(var*var*var))))", chars!"((var*((var*var*var)*(var*var*var))*((var*var*var)*(var*var*var)))*(var*((var*var*var)*(var*var*var))*((var*var*var)*(var*var*var))))", chars!"x^26", chars!"x^{26}"⟩
/-- Monomial.hh:793-813, class `Monomial_27`. -/
def Monomial_27 : ClassText := ⟨"", chars!"(var*(var*((var*var*var)*(var*var*var))*((var*var*var)*(var*var*var)))*(var*((var*var*var)*(var*var*var))*((var*var*var)*(var*var*var))))", chars!"(var*(var*((var*var*var)*(var*var*var))*((var*var*var)*(var*var*var)))*(var*((var*var*var)*(var*var*var))*((var*var*var)*(var*var*var))))", chars!"x^27", chars!"x^{27}"⟩
/-- Monomial.hh:822-842, class `Monomial_28`. -/
def Monomial_28 : ClassText := ⟨"", chars!"(((var*(var*var*var)*(var*var*var))*(var*(var*var*var)*(var*var*var)))*((var*(var*var*var)*(var*var*var))*(var*(var*var*var)*(var*var*var))))", chars!"(((var*(var*var*var)*(var*var*var))*(var*(var*var*var)*(var*var*var)))*((var*(var*var*var)*(var*var*var))*(var*(var*var*var)*(var*var*var))))", chars!"x^28", chars!"x^{28}"⟩
/-- Monomial.hh:851-871, class `Monomial_29`. -/
def Monomial_29 : ClassText := ⟨"", chars!"(var*((var*(var*var*var)*(var*var*var))*(var*(var*var*var)*(var*var*var)))*((var*(var*var*var)*(var*var*var))*(var*(var*var*var)*(var*var*var))))", chars!"(var*((var*(var*var*var)*(var*var*var))*(var*(var*var*var)*(var*var*var)))*((var*(var*var*var)*(var*var*var))*(var*(var*var*var)*(var*var*var))))", chars!"x^29", chars!"x^{29}"⟩
/-- Monomial.hh:880-900, class `Monomial_0_grad`. -/
def Monomial_0_grad : ClassText := ⟨"", chars!"0.0", chars!"0.0", chars!"0", chars!"0"⟩
/-- Monomial.hh:909-929, class `Monomial_1_grad`. -/
def Monomial_1_grad : ClassText := ⟨"", chars!"1.0", chars!"1.0", chars!"1", chars!"1"⟩
/-- Monomial.hh:938-958, class `Monomial_2_grad`. -/
def Monomial_2_grad : ClassText := ⟨"", chars!"2.0*var", chars!"2.0*var", chars!"2*x", chars!"2  x"⟩
/-- Monomial.hh:967-987, class `Monomial_3_grad`. -/
def Monomial_3_grad : ClassText := ⟨"", chars!"3.0*(var*var)", chars!"3.0*(var*var)", chars!"3*x^2", chars!"3  x^{2}"⟩
/-- Monomial.hh:996-1016, class `Monomial_4_grad`. -/
def Monomial_4_grad : ClassText := ⟨"", chars!"4.0*(var*var*var)", chars!"4.0*(var*var*var)", chars!"4*x^3", chars!"4  x^{3}"⟩
/-- Monomial.hh:1025-1045, class `Monomial_5_grad`. -/
def Monomial_5_grad : ClassText := ⟨"", chars!"5.0*((var*var)*(var*var))", chars!"5.0*((var*var)*(var*var))", chars!"5*x^4", chars!"5  x^{4}"⟩
/-- Monomial.hh:1054-1074, class `Monomial_6_grad`. -/
def Monomial_6_grad : ClassText := ⟨"", chars!"6.0*(var*(var*var)*(var*var))", chars!"6.0*(var*(var*var)*(var*var))", chars!"6*x^5", chars!"6  x^{5}"⟩
/-- Monomial.hh:1083-1103, class `Monomial_7_grad`. -/
def Monomial_7_grad : ClassText := ⟨"", chars!"7.0*((var*var*var)*(var*var*var))", chars!"7.0*((var*var*var)*(var*var*var))", chars!"7*x^6", chars!"7  x^{6}"⟩
/-- Monomial.hh:1112-1132, class `Monomial_8_grad`. -/
def Monomial_8_grad : ClassText := ⟨"", chars!"8.0*(var*(var*var*var)*(var*var*var))", chars!"8.0*(var*(var*var*var)*(var*var*var))", chars!"8*x^7", chars!"8  x^{7}"⟩
/-- Monomial.hh:1141-1161, class `Monomial_9_grad`. -/
def Monomial_9_grad : ClassText := ⟨"", chars!"9.0*(((var*var)*(var*var))*((var*var)*(var*var)))", chars!"9.0*(((var*var)*(var*var))*((var*var)*(var*var)))", chars!"9*x^8", chars!"9  x^{8}"⟩
/-- Monomial.hh:1170-1190, class `Monomial_10_grad`. -/
def Monomial_10_grad : ClassText := ⟨"", chars!"10.0*(var*((var*var)*(var*var))*((var*var)*(var*var)))", chars!"10.0*(var*((var*var)*(var*var))*((var*var)*(var*var)))", chars!"10*x^9", chars!"10  x^{9}"⟩
/-- Monomial.hh:1199-1219, class `Monomial_11_grad`. -/
def Monomial_11_grad : ClassText := ⟨"", chars!"11.0*((var*(var*var)*(var*var))*(var*(var*var)*(var*var)))", chars!"11.0*((var*(var*var)*(var*var))*(var*(var*var)*(var*var)))", chars!"11*x^10", chars!"11  x^{10}"⟩
/-- Monomial.hh:1228-1248, class `Monomial_12_grad`. -/
def Monomial_12_grad : ClassText := ⟨"", chars!"12.0*(var*(var*(var*var)*(var*var))*(var*(var*var)*(var*var)))", chars!"12.0*(var*(var*(var*var)*(var*var))*(var*(var*var)*(var*var)))", chars!"12*x^11", chars!"12  x^{11}"⟩
/-- Monomial.hh:1257-1277, class `Monomial_13_grad`. -/
def Monomial_13_grad : ClassText := ⟨"", chars!"13.0*(((var*var*var)*(var*var*var))*((var*var*var)*(var*var*var)))", chars!"13.0*(((var*var*var)*(var*var*var))*((var*var*var)*(var*var*var)))", chars!"13*x^12", chars!"13  x^{12}"⟩
/-- Monomial.hh:1286-1306, class `Monomial_14_grad`. -/
def Monomial_14_grad : ClassText := ⟨"", chars!"14.0*(var*((var*var*var)*(var*var*var))*((var*var*var)*(var*var*var)))", chars!"14.0*(var*((var*var*var)*(var*var*var))*((var*var*var)*(var*var*var)))", chars!"14*x^13", chars!"14  x^{13}"⟩
/-- Monomial.hh:1315-1335, class `Monomial_15_grad`. -/
def Monomial_15_grad : ClassText := ⟨"", chars!"15.0*((var*(var*var*var)*(var*var*var))*(var*(var*var*var)*(var*var*var)))", chars!"15.0*((var*(var*var*var)*(var*var*var))*(var*(var*var*var)*(var*var*var)))", chars!"15*x^14", chars!"15  x^{14}"⟩
/-- Monomial.hh:1344-1364, class `Monomial_16_grad`. -/
def Monomial_16_grad : ClassText := ⟨"", chars!"16.0*(var*(var*(var*var*var)*(var*var*var))*(var*(var*var*var)*(var*var*var)))", chars!"16.0*(var*(var*(var*var*var)*(var*var*var))*(var*(var*var*var)*(var*var*var)))", chars!"16*x^15", chars!"16  x^{15}"⟩
/-- Monomial.hh:1373-1393, class `Monomial_17_grad`. -/
def Monomial_17_grad : ClassText := ⟨"", chars!"17.0*((((var*var)*(var*var))*((var*var)*(var*var)))*(((var*var)*(var*var))*((var*var)*(var*var))))", chars!"17.0*((((var*var)*(var*var))*((var*var)*(var*var)))*(((var*var)*(var*var))*((var*var)*(var*var))))", chars!"17*x^16", chars!"17  x^{16}"⟩
/-- Monomial.hh:1402-1422, class `Monomial_18_grad`. -/
def Monomial_18_grad : ClassText := ⟨"", chars!"18.0*(var*(((var*var)*(var*var))*((var*var)*(var*var)))*(((var*var)*(var*var))*((var*var)*(var*var))))", chars!"18.0*(var*(((var*var)*(var*var))*((var*var)*(var*var)))*(((var*var)*(var*var))*((var*var)*(var*var))))", chars!"18*x^17", chars!"18  x^{17}"⟩
/-- Monomial.hh:1431-1451, class `Monomial_19_grad`. -/
def Monomial_19_grad : ClassText := ⟨"", chars!"19.0*((var*((var*var)*(var*var))*((var*var)*(var*var)))*(var*((var*var)*(var*var))*((var*var)*(var*var))))", chars!"19.0*((var*((var*var)*(var*var))*((var*var)*(var*var)))*(var*((var*var)*(var*var))*((var*var)*(var*var))))", chars!"19*x^18", chars!"19  x^{18}"⟩
/-- Monomial.hh:1460-1480, class `Monomial_20_grad`. -/
def Monomial_20_grad : ClassText := ⟨"", chars!"20.0*(var*(var*((var*var)*(var*var))*((var*var)*(var*var)))*(var*((var*var)*(var*var))*((var*var)*(var*var))))", chars!"20.0*(var*(var*((var*var)*(var*var))*((var*var)*(var*var)))*(var*((var*var)*(var*var))*((var*var)*(var*var))))", chars!"20*x^19", chars!"20  x^{19}"⟩
/-- Monomial.hh:1489-1509, class `Monomial_21_grad`. -/
def Monomial_21_grad : ClassText := ⟨"", chars!"21.0*(((var*(var*var)*(var*var))*(var*(var*var)*(var*var)))*((var*(var*var)*(var*var))*(var*(var*var)*(var*var))))", chars!"21.0*(((var*(var*var)*(var*var))*(var*(var*var)*(var*var)))*((var*(var*var)*(var*var))*(var*(var*var)*(var*var))))", chars!"21*x^20", chars!"21  x^{20}"⟩
/-- Monomial.hh:1518-1538, class `Monomial_22_grad`. -/
def Monomial_22_grad : ClassText := ⟨"", chars!"22.0*(var*((var*(var*var)*(var*var))*(var*(var*var)*(var*var)))*((var*(var*var)*(var*var))*(var*(var*var)*(var*var))))", chars!"22.0*(var*((var*(var*var)*(var*var))*(var*(var*var)*(var*var)))*((var*(var*var)*(var*var))*(var*(var*var)*(var*var))))", chars!"22*x^21", chars!"22  x^{21}"⟩
/-- Monomial.hh:1547-1567, class `Monomial_23_grad`. -/
def Monomial_23_grad : ClassText := ⟨"", chars!"23.0*((var*(var*(var*var)*(var*var))*(var*(var*var)*(var*var)))*(var*(var*(var*var)*(var*var))*(var*(var*var)*(var*var))))", chars!"23.0*((var*(var*(var*var)*(var*var))*(var*(var*var)*(var*var)))*(var*(var*(var*var)*(var*var))*(var*(var*var)*(var*var))))", chars!"23*x^22", chars!"23  x^{22}"⟩
/-- Monomial.hh:1576-1596, class `Monomial_24_grad`. -/
def Monomial_24_grad : ClassText := ⟨"", chars!"24.0*(var*(var*(var*(var*var)*(var*var))*(var*(var*var)*(var*var)))*(var*(var*(var*var)*(var*var))*(var*(var*var)*(var*var))))", chars!"24.0*(var*(var*(var*(var*var)*(var*var))*(var*(var*var)*(var*var)))*(var*(var*(var*var)*(var*var))*(var*(var*var)*(var*var))))", chars!"24*x^23", chars!"24  x^{23}"⟩
/-- Monomial.hh:1605-1625, class `Monomial_25_grad`. -/
def Monomial_25_grad : ClassText := ⟨"", chars!"25.0*((((var*var*var)*(var*var*var))*((var*var*var)*(var*var*var)))*(((var*var*var)*(var*var*var))*((var*var*var)*(var*var*var))))", chars!"25.0*((((var*var*var)*(var*var*var))*((var*var*var)*(var*var*var)))*(((var*var*var)*(var*var*var))*((var*var*var)*(var*var*var))))", chars!"25*x^24", chars!"25  x^{24}"⟩
/-- Monomial.hh:1634-1654, class `Monomial_26_grad`. -/
def Monomial_26_grad : ClassText := ⟨"", chars!"26.0*(var*(((var*var*var)*(var*var*var))*((var*var*var)*(var*var*var)))*(((var*var*var)*(var*var*var))*((var*var*var)*(var*var*var))))", chars!"26.0*(var*(((var*var*var)*(var*var*var))*((var*var*var)*(var*var*var)))*(((var*var*var)*(var*var*var))*((var*var*var)*(var*var*var))))", chars!"26*x^25", chars!"26  x^{25}"⟩
/-- Monomial.hh:1663-1683, class `Monomial_27_grad`. -/
def Monomial_27_grad : ClassText := ⟨"", chars!"27.0*((var*((var*var*var)*(var*var*var))*((var*var*var)*(var*var*var)))*(var*((var*var*var)*(var*var*var))*((var*var*var)*(var*var*var))))", chars!"27.0*((var*((var*var*var)*(var*var*var))*((var*var*var)*(var*var*var)))*(var*((var*var*var)*(var*var*var))*((var*var*var)*(var*var*var))))", chars!"27*x^26", chars!"27  x^{26}"⟩
/-- Monomial.hh:1692-1712, class `Monomial_28_grad`. -/
def Monomial_28_grad : ClassText := ⟨"", chars!"28.0*(var*(var*((var*var*var)*(var*var*var))*((var*var*var)*(var*var*var)))*(var*((var*var*var)*(var*var*var))*((var*var*var)*(var*var*var))))", chars!"28.0*(var*(var*((var*var*var)*(var*var*var))*((var*var*var)*(var*var*var)))*(var*((var*var*var)*(var*var*var))*((var*var*var)*(var*var*var))))", chars!"28*x^27", chars!"28  x^{27}"⟩
/-- Monomial.hh:1721-1741, class `Monomial_29_grad`. -/
def Monomial_29_grad : ClassText := ⟨"", chars!"29.0*(((var*(var*var*var)*(var*var*var))*(var*(var*var*var)*(var*var*var)))*((var*(var*var*var)*(var*var*var))*(var*(var*var*var)*(var*var*var))))", chars!"29.0*(((var*(var*var*var)*(var*var*var))*(var*(var*var*var)*(var*var*var)))*((var*(var*var*var)*(var*var*var))*(var*(var*var*var)*(var*var*var))))", chars!"29*x^28", chars!"29  x^{28}"⟩
/-- Monomial.hh:1750-1770, class `Monomial_0_hess`. -/
def Monomial_0_hess : ClassText := ⟨"", chars!"0.0", chars!"0.0", chars!"0", chars!"0"⟩
/-- Monomial.hh:1779-1799, class `Monomial_1_hess`. -/
def Monomial_1_hess : ClassText := ⟨"", chars!"0.0", chars!"0.0", chars!"0", chars!"0"⟩
/-- Monomial.hh:1808-1828, class `Monomial_2_hess`. -/
def Monomial_2_hess : ClassText := ⟨"", chars!"2.0", chars!"2.0", chars!"2", chars!"2"⟩
/-- Monomial.hh:1837-1857, class `Monomial_3_hess`. -/
def Monomial_3_hess : ClassText := ⟨"", chars!"6.0*var", chars!"6.0*var", chars!"6*x", chars!"6  x"⟩
/-- Monomial.hh:1866-1886, class `Monomial_4_hess`. -/
def Monomial_4_hess : ClassText := ⟨"", chars!"12.0*(var*var)", chars!"12.0*(var*var)", chars!"12*x^2", chars!"12  x^{2}"⟩
/-- Monomial.hh:1895-1915, class `Monomial_5_hess`. -/
def Monomial_5_hess : ClassText := ⟨"", chars!"20.0*(var*var*var)", chars!"20.0*(var*var*var)", chars!"20*x^3", chars!"20  x^{3}"⟩
/-- Monomial.hh:1924-1944, class `Monomial_6_hess`. -/
def Monomial_6_hess : ClassText := ⟨"", chars!"30.0*((var*var)*(var*var))", chars!"30.0*((var*var)*(var*var))", chars!"30*x^4", chars!"30  x^{4}"⟩
/-- Monomial.hh:1953-1973, class `Monomial_7_hess`. -/
def Monomial_7_hess : ClassText := ⟨"", chars!"42.0*(var*(var*var)*(var*var))", chars!"42.0*(var*(var*var)*(var*var))", chars!"42*x^5", chars!"42  x^{5}"⟩
/-- Monomial.hh:1982-2002, class `Monomial_8_hess`. -/
def Monomial_8_hess : ClassText := ⟨"", chars!"56.0*((var*var*var)*(var*var*var))", chars!"56.0*((var*var*var)*(var*var*var))", chars!"56*x^6", chars!"56  x^{6}"⟩
/-- Monomial.hh:2011-2031, class `Monomial_9_hess`. -/
def Monomial_9_hess : ClassText := ⟨"", chars!"72.0*(var*(var*var*var)*(var*var*var))", chars!"72.0*(var*(var*var*var)*(var*var*var))", chars!"72*x^7", chars!"72  x^{7}"⟩
/-- Monomial.hh:2040-2060, class `Monomial_10_hess`. -/
def Monomial_10_hess : ClassText := ⟨"", chars!"90.0*(((var*var)*(var*var))*((var*var)*(var*var)))", chars!"90.0*(((var*var)*(var*var))*((var*var)*(var*var)))", chars!"90*x^8", chars!"90  x^{8}"⟩
/-- Monomial.hh:2069-2089, class `Monomial_11_hess`. -/
def Monomial_11_hess : ClassText := ⟨"", chars!"110.0*(var*((var*var)*(var*var))*((var*var)*(var*var)))", chars!"110.0*(var*((var*var)*(var*var))*((var*var)*(var*var)))", chars!"110*x^9", chars!"110  x^{9}"⟩
/-- Monomial.hh:2098-2118, class `Monomial_12_hess`. -/
def Monomial_12_hess : ClassText := ⟨"", chars!"132.0*((var*(var*var)*(var*var))*(var*(var*var)*(var*var)))", chars!"132.0*((var*(var*var)*(var*var))*(var*(var*var)*(var*var)))", chars!"132*x^10", chars!"132  x^{10}"⟩
/-- Monomial.hh:2127-2147, class `Monomial_13_hess`. -/
def Monomial_13_hess : ClassText := ⟨"", chars!"156.0*(var*(var*(var*var)*(var*var))*(var*(var*var)*(var*var)))", chars!"156.0*(var*(var*(var*var)*(var*var))*(var*(var*var)*(var*var)))", chars!"156*x^11", chars!"156  x^{11}"⟩
/-- Monomial.hh:2156-2176, class `Monomial_14_hess`. -/
def Monomial_14_hess : ClassText := ⟨"", chars!"182.0*(((var*var*var)*(var*var*var))*((var*var*var)*(var*var*var)))", chars!"182.0*(((var*var*var)*(var*var*var))*((var*var*var)*(var*var*var)))", chars!"182*x^12", chars!"182  x^{12}"⟩
/-- Monomial.hh:2185-2205, class `Monomial_15_hess`. -/
def Monomial_15_hess : ClassText := ⟨"", chars!"210.0*(var*((var*var*var)*(var*var*var))*((var*var*var)*(var*var*var)))", chars!"210.0*(var*((var*var*var)*(var*var*var))*((var*var*var)*(var*var*var)))", chars!"210*x^13", chars!"210  x^{13}"⟩
/-- Monomial.hh:2214-2234, class `Monomial_16_hess`. -/
def Monomial_16_hess : ClassText := ⟨"", chars!"240.0*((var*(var*var*var)*(var*var*var))*(var*(var*var*var)*(var*var*var)))", chars!"240.0*((var*(var*var*var)*(var*var*var))*(var*(var*var*var)*(var*var*var)))", chars!"240*x^14", chars!"240  x^{14}"⟩
/-- Monomial.hh:2243-2263, class `Monomial_17_hess`. -/
def Monomial_17_hess : ClassText := ⟨"", chars!"272.0*(var*(var*(var*var*var)*(var*var*var))*(var*(var*var*var)*(var*var*var)))", chars!"272.0*(var*(var*(var*var*var)*(var*var*var))*(var*(var*var*var)*(var*var*var)))", chars!"272*x^15", chars!"272  x^{15}"⟩
/-- Monomial.hh:2272-2292, class `Monomial_18_hess`. -/
def Monomial_18_hess : ClassText := ⟨"", chars!"306.0*((((var*var)*(var*var))*((var*var)*(var*var)))*(((var*var)*(var*var))*((var*var)*(var*var))))", chars!"306.0*((((var*var)*(var*var))*((var*var)*(var*var)))*(((var*var)*(var*var))*((var*var)*(var*var))))", chars!"306*x^16", chars!"306  x^{16}"⟩
/-- Monomial.hh:2301-2321, class `Monomial_19_hess`. -/
def Monomial_19_hess : ClassText := ⟨"", chars!"342.0*(var*(((var*var)*(var*var))*((var*var)*(var*var)))*(((var*var)*(var*var))*((var*var)*(var*var))))", chars!"342.0*(var*(((var*var)*(var*var))*((var*var)*(var*var)))*(((var*var)*(var*var))*((var*var)*(var*var))))", chars!"342*x^17", chars!"342  x^{17}"⟩
/-- Monomial.hh:2330-2350, class `Monomial_20_hess`. -/
def Monomial_20_hess : ClassText := ⟨"", chars!"380.0*((var*((var*var)*(var*var))*((var*var)*(var*var)))*(var*((var*var)*(var*var))*((var*var)*(var*var))))", chars!"380.0*((var*((var*var)*(var*var))*((var*var)*(var*var)))*(var*((var*var)*(var*var))*((var*var)*(var*var))))", chars!"380*x^18", chars!"380  x^{18}"⟩
/-- Monomial.hh:2359-2379, class `Monomial_21_hess`. -/
def Monomial_21_hess : ClassText := ⟨"", chars!"420.0*(var*(var*((var*var)*(var*var))*((var*var)*(var*var)))*(var*((var*var)*(var*var))*((var*var)*(var*var))))", chars!"420.0*(var*(var*((var*var)*(var*var))*((var*var)*(var*var)))*(var*((var*var)*(var*var))*((var*var)*(var*var))))", chars!"420*x^19", chars!"420  x^{19}"⟩
/-- Monomial.hh:2388-2408, class `Monomial_22_hess`. -/
def Monomial_22_hess : ClassText := ⟨"", chars!"462.0*(((var*(var*var)*(var*var))*(var*(var*var)*(var*var)))*((var*(var*var)*(var*var))*(var*(var*var)*(var*var))))", chars!"462.0*(((var*(var*var)*(var*var))*(var*(var*var)*(var*var)))*((var*(var*var)*(var*var))*(var*(var*var)*(var*var))))", chars!"462*x^20", chars!"462  x^{20}"⟩
/-- Monomial.hh:2417-2437, class `Monomial_23_hess`. -/
def Monomial_23_hess : ClassText := ⟨"", chars!"506.0*(var*((var*(var*var)*(var*var))*(var*(var*var)*(var*var)))*((var*(var*var)*(var*var))*(var*(var*var)*(var*var))))", chars!"506.0*(var*((var*(var*var)*(var*var))*(var*(var*var)*(var*var)))*((var*(var*var)*(var*var))*(var*(var*var)*(var*var))))", chars!"506*x^21", chars!"506  x^{21}"⟩
/-- Monomial.hh:2446-2466, class `Monomial_24_hess`. -/
def Monomial_24_hess : ClassText := ⟨"", chars!"552.0*((var*(var*(var*var)*(var*var))*(var*(var*var)*(var*var)))*(var*(var*(var*var)*(var*var))*(var*(var*var)*(var*var))))", chars!"552.0*((var*(var*(var*var)*(var*var))*(var*(var*var)*(var*var)))*(var*(var*(var*var)*(var*var))*(var*(var*var)*(var*var))))", chars!"552*x^22", chars!"552  x^{22}"⟩
/-- Monomial.hh:2475-2495, class `Monomial_25_hess`. -/
def Monomial_25_hess : ClassText := ⟨"", chars!"600.0*(var*(var*(var*(var*var)*(var*var))*(var*(var*var)*(var*var)))*(var*(var*(var*var)*(var*var))*(var*(var*var)*(var*var))))", chars!"600.0*(var*(var*(var*(var*var)*(var*var))*(var*(var*var)*(var*var)))*(var*(var*(var*var)*(var*var))*(var*(var*var)*(var*var))))", chars!"600*x^23", chars!"600  x^{23}"⟩
/-- Monomial.hh:2504-2524, class `Monomial_26_hess`. -/
def Monomial_26_hess : ClassText := ⟨"", chars!"650.0*((((var*var*var)*(var*var*var))*((var*var*var)*(var*var*var)))*(((var*var*var)*(var*var*var))*((var*var*var)*(var*var*var))))", chars!"650.0*((((var*var*var)*(var*var*var))*((var*var*var)*(var*var*var)))*(((var*var*var)*(var*var*var))*((var*var*var)*(var*var*var))))", chars!"650*x^24", chars!"650  x^{24}"⟩
/-- Monomial.hh:2533-2553, class `Monomial_27_hess`. -/
def Monomial_27_hess : ClassText := ⟨"", chars!"702.0*(var*(((var*var*var)*(var*var*var))*((var*var*var)*(var*var*var)))*(((var*var*var)*(var*var*var))*((var*var*var)*(var*var*var))))", chars!"702.0*(var*(((var*var*var)*(var*var*var))*((var*var*var)*(var*var*var)))*(((var*var*var)*(var*var*var))*((var*var*var)*(var*var*var))))", chars!"702*x^25", chars!"702  x^{25}"⟩
/-- Monomial.hh:2562-2582, class `Monomial_28_hess`. -/
def Monomial_28_hess : ClassText := ⟨"", chars!"756.0*((var*((var*var*var)*(var*var*var))*((var*var*var)*(var*var*var)))*(var*((var*var*var)*(var*var*var))*((var*var*var)*(var*var*var))))", chars!"756.0*((var*((var*var*var)*(var*var*var))*((var*var*var)*(var*var*var)))*(var*((var*var*var)*(var*var*var))*((var*var*var)*(var*var*var))))", chars!"756*x^26", chars!"756  x^{26}"⟩
/-- Monomial.hh:2591-2611, class `Monomial_29_hess`. -/
def Monomial_29_hess : ClassText := ⟨"", chars!"812.0*(var*(var*((var*var*var)*(var*var*var))*((var*var*var)*(var*var*var)))*(var*((var*var*var)*(var*var*var))*((var*var*var)*(var*var*var))))", chars!"812.0*(var*(var*((var*var*var)*(var*var*var))*((var*var*var)*(var*var*var)))*(var*((var*var*var)*(var*var*var))*((var*var*var)*(var*var*var))))", chars!"812*x^27", chars!"812  x^{27}"⟩

/-- Monomial.hh:2672-2851, the `switch` of `basis_function`: name, function, gradient, Hessian. -/
def monomialTerms : List TermText := [
  ⟨"Monomial_0", Monomial_0, Monomial_0_grad, Monomial_0_hess⟩,
  ⟨"Monomial_1", Monomial_1, Monomial_1_grad, Monomial_1_hess⟩,
  ⟨"Monomial_2", Monomial_2, Monomial_2_grad, Monomial_2_hess⟩,
  ⟨"Monomial_3", Monomial_3, Monomial_3_grad, Monomial_3_hess⟩,
  ⟨"Monomial_4", Monomial_4, Monomial_4_grad, Monomial_4_hess⟩,
  ⟨"Monomial_5", Monomial_5, Monomial_5_grad, Monomial_5_hess⟩,
  ⟨"Monomial_6", Monomial_6, Monomial_6_grad, Monomial_6_hess⟩,
  ⟨"Monomial_7", Monomial_7, Monomial_7_grad, Monomial_7_hess⟩,
  ⟨"Monomial_8", Monomial_8, Monomial_8_grad, Monomial_8_hess⟩,
  ⟨"Monomial_9", Monomial_9, Monomial_9_grad, Monomial_9_hess⟩,
  ⟨"Monomial_10", Monomial_10, Monomial_10_grad, Monomial_10_hess⟩,
  ⟨"Monomial_11", Monomial_11, Monomial_11_grad, Monomial_11_hess⟩,
  ⟨"Monomial_12", Monomial_12, Monomial_12_grad, Monomial_12_hess⟩,
  ⟨"Monomial_13", Monomial_13, Monomial_13_grad, Monomial_13_hess⟩,
  ⟨"Monomial_14", Monomial_14, Monomial_14_grad, Monomial_14_hess⟩,
  ⟨"Monomial_15", Monomial_15, Monomial_15_grad, Monomial_15_hess⟩,
  ⟨"Monomial_16", Monomial_16, Monomial_16_grad, Monomial_16_hess⟩,
  ⟨"Monomial_17", Monomial_17, Monomial_17_grad, Monomial_17_hess⟩,
  ⟨"Monomial_18", Monomial_18, Monomial_18_grad, Monomial_18_hess⟩,
  ⟨"Monomial_19", Monomial_19, Monomial_19_grad, Monomial_19_hess⟩,
  ⟨"Monomial_20", Monomial_20, Monomial_20_grad, Monomial_20_hess⟩,
  ⟨"Monomial_21", Monomial_21, Monomial_21_grad, Monomial_21_hess⟩,
  ⟨"Monomial_22", Monomial_22, Monomial_22_grad, Monomial_22_hess⟩,
  ⟨"Monomial_23", Monomial_23, Monomial_23_grad, Monomial_23_hess⟩,
  ⟨"Monomial_24", Monomial_24, Monomial_24_grad, Monomial_24_hess⟩,
  ⟨"Monomial_25", Monomial_25, Monomial_25_grad, Monomial_25_hess⟩,
  ⟨"Monomial_26", Monomial_26, Monomial_26_grad, Monomial_26_hess⟩,
  ⟨"Monomial_27", Monomial_27, Monomial_27_grad, Monomial_27_hess⟩,
  ⟨"Monomial_28", Monomial_28, Monomial_28_grad, Monomial_28_hess⟩,
  ⟨"Monomial_29", Monomial_29, Monomial_29_grad, Monomial_29_hess⟩]

/-- Chebyshev.hh:10-30, class `Chebyshev_0`. -/
def Chebyshev_0 : ClassText := ⟨"", chars!"1.0000000000000000e+00", chars!"1.0000000000000000e+00", chars!"1.0", chars!"1.0"⟩
/-- Chebyshev.hh:39-59, class `Chebyshev_1`. -/
def Chebyshev_1 : ClassText := ⟨"", chars!"var", chars!"var", chars!"x", chars!"x"⟩
/-- Chebyshev.hh:68-88, class `Chebyshev_2`. -/
def Chebyshev_2 : ClassText := ⟨"", chars!" 2.0*(var*var)-1.0000000000000000e+00", chars!" 2.0*(var*var)-1.0000000000000000e+00", chars!"-1.0+2*x^2", chars!"-1.0+2 x^{2}"⟩
/-- Chebyshev.hh:97-117, class `Chebyshev_3`. -/
def Chebyshev_3 : ClassText := ⟨"", chars!" -3.0000000000000000e+00*var+4.0*(var*var*var)", chars!" -3.0000000000000000e+00*var+4.0*(var*var*var)", chars!"4*x^3-(3.0)*x", chars!"4 x^{3}-{(3.0)} x"⟩
/-- Chebyshev.hh:126-146, class `Chebyshev_4`. -/
def Chebyshev_4 : ClassText := ⟨"", chars!" 8.0*((var*var)*(var*var))+-8.0000000000000000e+00*(var*var)+1.0000000000000000e+00", chars!" 8.0*((var*var)*(var*var))+-8.0000000000000000e+00*(var*var)+1.0000000000000000e+00", chars!"1.0-(8.0)*x^2+8*x^4", chars!"1.0-{(8.0)} x^{2}+8 x^{4}"⟩
/-- Chebyshev.hh:155-175, class `Chebyshev_5`. -/
def Chebyshev_5 : ClassText := ⟨"", chars!" 5.0000000000000000e+00*var+16.0*(var*(var*var)*(var*var))+-2.0000000000000000e+01*(var*var*var)", chars!" 5.0000000000000000e+00*var+16.0*(var*(var*var)*(var*var))+-2.0000000000000000e+01*(var*var*var)", chars!"-(20.0)*x^3+(5.0)*x+16*x^5", chars!"-{(20.0)} x^{3}+{(5.0)} x+16 x^{5}"⟩
/-- Chebyshev.hh:184-204, class `Chebyshev_6`. -/
def Chebyshev_6 : ClassText := ⟨"", chars!" 32.0*((var*var*var)*(var*var*var))+-4.8000000000000000e+01*((var*var)*(var*var))+1.8000000000000000e+01*(var*var)-1.0000000000000000e+00", chars!" 32.0*((var*var*var)*(var*var*var))+-4.8000000000000000e+01*((var*var)*(var*var))+1.8000000000000000e+01*(var*var)-1.0000000000000000e+00", chars!"-1.0+(18.0)*x^2+32*x^6-(48.0)*x^4", chars!"-1.0+{(18.0)} x^{2}+32 x^{6}-{(48.0)} x^{4}"⟩
/-- Chebyshev.hh:213-233, class `Chebyshev_7`. -/
def Chebyshev_7 : ClassText := ⟨"", chars!" -7.0000000000000000e+00*var+64.0*(var*(var*var*var)*(var*var*var))+-1.1200000000000000e+02*(var*(var*var)*(var*var))+5.6000000000000000e+01*(var*var*var)", chars!" -7.0000000000000000e+00*var+64.0*(var*(var*var*var)*(var*var*var))+-1.1200000000000000e+02*(var*(var*var)*(var*var))+5.6000000000000000e+01*(var*var*var)", chars!"(56.0)*x^3-(7.0)*x+64*x^7-(112.0)*x^5", chars!"{(56.0)} x^{3}-{(7.0)} x+64 x^{7}-{(112.0)} x^{5}"⟩
/-- Chebyshev.hh:242-262, class `Chebyshev_8`. -/
def Chebyshev_8 : ClassText := ⟨"", chars!" -2.5600000000000000e+02*((var*var*var)*(var*var*var))+1.6000000000000000e+02*((var*var)*(var*var))+-3.2000000000000000e+01*(var*var)+128.0*(((var*var)*(var*var))*((var*var)*(var*var)))+1.0000000000000000e+00", chars!" -2.5600000000000000e+02*((var*var*var)*(var*var*var))+1.6000000000000000e+02*((var*var)*(var*var))+-3.2000000000000000e+01*(var*var)+128.0*(((var*var)*(var*var))*((var*var)*(var*var)))+1.0000000000000000e+00", chars!"1.0-(32.0)*x^2+128*x^8-(256.0)*x^6+(160.0)*x^4", chars!"1.0-{(32.0)} x^{2}+128 x^{8}-{(256.0)} x^{6}+{(160.0)} x^{4}"⟩
/-- Chebyshev.hh:271-291, class `Chebyshev_9`. -/
def Chebyshev_9 : ClassText := ⟨"", chars!" 9.0000000000000000e+00*var+-5.7600000000000000e+02*(var*(var*var*var)*(var*var*var))+4.3200000000000000e+02*(var*(var*var)*(var*var))+-1.2000000000000000e+02*(var*var*var)+256.0*(var*((var*var)*(var*var))*((var*var)*(var*var)))", chars!" 9.0000000000000000e+00*var+-5.7600000000000000e+02*(var*(var*var*var)*(var*var*var))+4.3200000000000000e+02*(var*(var*var)*(var*var))+-1.2000000000000000e+02*(var*var*var)+256.0*(var*((var*var)*(var*var))*((var*var)*(var*var)))", chars!"-(120.0)*x^3+256*x^9+(9.0)*x-(576.0)*x^7+(432.0)*x^5", chars!"-{(120.0)} x^{3}+256 x^{9}+{(9.0)} x-{(576.0)} x^{7}+{(432.0)} x^{5}"⟩
/-- Chebyshev.hh:300-320, class `Chebyshev_10`. -/
def Chebyshev_10 : ClassText := ⟨"", chars!" 512.0*((var*(var*var)*(var*var))*(var*(var*var)*(var*var)))+1.1200000000000000e+03*((var*var*var)*(var*var*var))+-4.0000000000000000e+02*((var*var)*(var*var))+5.0000000000000000e+01*(var*var)+-1.2800000000000000e+03*(((var*var)*(var*var))*((var*var)*(var*var)))-1.0000000000000000e+00", chars!" 512.0*((var*(var*var)*(var*var))*(var*(var*var)*(var*var)))+1.1200000000000000e+03*((var*var*var)*(var*var*var))+-4.0000000000000000e+02*((var*var)*(var*var))+5.0000000000000000e+01*(var*var)+-1.2800000000000000e+03*(((var*var)*(var*var))*((var*var)*(var*var)))-1.0000000000000000e+00", chars!"-1.0+(50.0)*x^2-(1280.0)*x^8+512*x^10+(1120.0)*x^6-(400.0)*x^4", chars!"-1.0+{(50.0)} x^{2}-{(1280.0)} x^{8}+512 x^{10}+{(1120.0)} x^{6}-{(400.0)} x^{4}"⟩
/-- Chebyshev.hh:329-349, class `Chebyshev_11`. -/
def Chebyshev_11 : ClassText := ⟨"", chars!" -1.1000000000000000e+01*var+2.8160000000000000e+03*(var*(var*var*var)*(var*var*var))+-1.2320000000000000e+03*(var*(var*var)*(var*var))+2.2000000000000000e+02*(var*var*var)+-2.8160000000000000e+03*(var*((var*var)*(var*var))*((var*var)*(var*var)))+1024.0*(var*(var*(var*var)*(var*var))*(var*(var*var)*(var*var)))", chars!" -1.1000000000000000e+01*var+2.8160000000000000e+03*(var*(var*var*var)*(var*var*var))+-1.2320000000000000e+03*(var*(var*var)*(var*var))+2.2000000000000000e+02*(var*var*var)+-2.8160000000000000e+03*(var*((var*var)*(var*var))*((var*var)*(var*var)))+1024.0*(var*(var*(var*var)*(var*var))*(var*(var*var)*(var*var)))", chars!"(220.0)*x^3+1024*x^11-(2816.0)*x^9-(11.0)*x+(2816.0)*x^7-(1232.0)*x^5", chars!"{(220.0)} x^{3}+1024 x^{11}-{(2816.0)} x^{9}-{(11.0)} x+{(2816.0)} x^{7}-{(1232.0)} x^{5}"⟩
/-- Chebyshev.hh:358-378, class `Chebyshev_12`. -/
def Chebyshev_12 : ClassText := ⟨"", chars!" -6.1440000000000000e+03*((var*(var*var)*(var*var))*(var*(var*var)*(var*var)))+2048.0*(((var*var*var)*(var*var*var))*((var*var*var)*(var*var*var)))+-3.5840000000000000e+03*((var*var*var)*(var*var*var))+8.4000000000000000e+02*((var*var)*(var*var))+-7.2000000000000000e+01*(var*var)+6.9120000000000000e+03*(((var*var)*(var*var))*((var*var)*(var*var)))+1.0000000000000000e+00", chars!" -6.1440000000000000e+03*((var*(var*var)*(var*var))*(var*(var*var)*(var*var)))+2048.0*(((var*var*var)*(var*var*var))*((var*var*var)*(var*var*var)))+-3.5840000000000000e+03*((var*var*var)*(var*var*var))+8.4000000000000000e+02*((var*var)*(var*var))+-7.2000000000000000e+01*(var*var)+6.9120000000000000e+03*(((var*var)*(var*var))*((var*var)*(var*var)))+1.0000000000000000e+00", chars!"1.0-(72.0)*x^2+(6912.0)*x^8+2048*x^12-(6144.0)*x^10-(3584.0)*x^6+(840.0)*x^4", chars!"1.0-{(72.0)} x^{2}+{(6912.0)} x^{8}+2048 x^{12}-{(6144.0)} x^{10}-{(3584.0)} x^{6}+{(840.0)} x^{4}"⟩
/-- Chebyshev.hh:387-407, class `Chebyshev_13`. -/
def Chebyshev_13 : ClassText := ⟨"", chars!" 1.3000000000000000e+01*var+-9.9840000000000000e+03*(var*(var*var*var)*(var*var*var))+2.9120000000000000e+03*(var*(var*var)*(var*var))+4096.0*(var*((var*var*var)*(var*var*var))*((var*var*var)*(var*var*var)))+-3.6400000000000000e+02*(var*var*var)+1.6640000000000000e+04*(var*((var*var)*(var*var))*((var*var)*(var*var)))+-1.3312000000000000e+04*(var*(var*(var*var)*(var*var))*(var*(var*var)*(var*var)))", chars!" 1.3000000000000000e+01*var+-9.9840000000000000e+03*(var*(var*var*var)*(var*var*var))+2.9120000000000000e+03*(var*(var*var)*(var*var))+4096.0*(var*((var*var*var)*(var*var*var))*((var*var*var)*(var*var*var)))+-3.6400000000000000e+02*(var*var*var)+1.6640000000000000e+04*(var*((var*var)*(var*var))*((var*var)*(var*var)))+-1.3312000000000000e+04*(var*(var*(var*var)*(var*var))*(var*(var*var)*(var*var)))", chars!"-(364.0)*x^3+4096*x^13-(13312.0)*x^11+(16640.0)*x^9+(13.0)*x-(9984.0)*x^7+(2912.0)*x^5", chars!"-{(364.0)} x^{3}+4096 x^{13}-{(13312.0)} x^{11}+{(16640.0)} x^{9}+{(13.0)} x-{(9984.0)} x^{7}+{(2912.0)} x^{5}"⟩
/-- Chebyshev.hh:416-436, class `Chebyshev_14`. -/
def Chebyshev_14 : ClassText := ⟨"", chars!" 8192.0*((var*(var*var*var)*(var*var*var))*(var*(var*var*var)*(var*var*var)))+3.9424000000000000e+04*((var*(var*var)*(var*var))*(var*(var*var)*(var*var)))+-2.8672000000000000e+04*(((var*var*var)*(var*var*var))*((var*var*var)*(var*var*var)))+9.4080000000000000e+03*((var*var*var)*(var*var*var))+-1.5680000000000000e+03*((var*var)*(var*var))+9.8000000000000000e+01*(var*var)+-2.6880000000000000e+04*(((var*var)*(var*var))*((var*var)*(var*var)))-1.0000000000000000e+00", chars!" 8192.0*((var*(var*var*var)*(var*var*var))*(var*(var*var*var)*(var*var*var)))+3.9424000000000000e+04*((var*(var*var)*(var*var))*(var*(var*var)*(var*var)))+-2.8672000000000000e+04*(((var*var*var)*(var*var*var))*((var*var*var)*(var*var*var)))+9.4080000000000000e+03*((var*var*var)*(var*var*var))+-1.5680000000000000e+03*((var*var)*(var*var))+9.8000000000000000e+01*(var*var)+-2.6880000000000000e+04*(((var*var)*(var*var))*((var*var)*(var*var)))-1.0000000000000000e+00", chars!"-1.0+(98.0)*x^2-(26880.0)*x^8+8192*x^14-(28672.0)*x^12+(39424.0)*x^10+(9408.0)*x^6-(1568.0)*x^4", chars!"-1.0+{(98.0)} x^{2}-{(26880.0)} x^{8}+8192 x^{14}-{(28672.0)} x^{12}+{(39424.0)} x^{10}+{(9408.0)} x^{6}-{(1568.0)} x^{4}"⟩
/-- Chebyshev.hh:445-465, class `Chebyshev_15`. -/
def Chebyshev_15 : ClassText := ⟨"", chars!" -1.5000000000000000e+01*var+2.8800000000000000e+04*(var*(var*var*var)*(var*var*var))+-6.0480000000000000e+03*(var*(var*var)*(var*var))+16384.0*(var*(var*(var*var*var)*(var*var*var))*(var*(var*var*var)*(var*var*var)))+-6.1440000000000000e+04*(var*((var*var*var)*(var*var*var))*((var*var*var)*(var*var*var)))+5.6000000000000000e+02*(var*var*var)+-7.0400000000000000e+04*(var*((var*var)*(var*var))*((var*var)*(var*var)))+9.2160000000000000e+04*(var*(var*(var*var)*(var*var))*(var*(var*var)*(var*var)))", chars!" -1.5000000000000000e+01*var+2.8800000000000000e+04*(var*(var*var*var)*(var*var*var))+-6.0480000000000000e+03*(var*(var*var)*(var*var))+16384.0*(var*(var*(var*var*var)*(var*var*var))*(var*(var*var*var)*(var*var*var)))+-6.1440000000000000e+04*(var*((var*var*var)*(var*var*var))*((var*var*var)*(var*var*var)))+5.6000000000000000e+02*(var*var*var)+-7.0400000000000000e+04*(var*((var*var)*(var*var))*((var*var)*(var*var)))+9.2160000000000000e+04*(var*(var*(var*var)*(var*var))*(var*(var*var)*(var*var)))", chars!"(560.0)*x^3+16384*x^15-(61440.0)*x^13+(92160.0)*x^11-(70400.0)*x^9-(15.0)*x+(28800.0)*x^7-(6048.0)*x^5", chars!"{(560.0)} x^{3}+16384 x^{15}-{(61440.0)} x^{13}+{(92160.0)} x^{11}-{(70400.0)} x^{9}-{(15.0)} x+{(28800.0)} x^{7}-{(6048.0)} x^{5}"⟩
/-- Chebyshev.hh:474-494, class `Chebyshev_16`. -/
def Chebyshev_16 : ClassText := ⟨"", chars!" -1.3107200000000000e+05*((var*(var*var*var)*(var*var*var))*(var*(var*var*var)*(var*var*var)))+-1.8022400000000000e+05*((var*(var*var)*(var*var))*(var*(var*var)*(var*var)))+2.1299200000000000e+05*(((var*var*var)*(var*var*var))*((var*var*var)*(var*var*var)))+-2.1504000000000000e+04*((var*var*var)*(var*var*var))+2.6880000000000000e+03*((var*var)*(var*var))+32768.0*((((var*var)*(var*var))*((var*var)*(var*var)))*(((var*var)*(var*var))*((var*var)*(var*var))))+-1.2800000000000000e+02*(var*var)+8.4480000000000000e+04*(((var*var)*(var*var))*((var*var)*(var*var)))+1.0000000000000000e+00", chars!" -1.3107200000000000e+05*((var*(var*var*var)*(var*var*var))*(var*(var*var*var)*(var*var*var)))+-1.8022400000000000e+05*((var*(var*var)*(var*var))*(var*(var*var)*(var*var)))+2.1299200000000000e+05*(((var*var*var)*(var*var*var))*((var*var*var)*(var*var*var)))+-2.1504000000000000e+04*((var*var*var)*(var*var*var))+2.6880000000000000e+03*((var*var)*(var*var))+32768.0*((((var*var)*(var*var))*((var*var)*(var*var)))*(((var*var)*(var*var))*((var*var)*(var*var))))+-1.2800000000000000e+02*(var*var)+8.4480000000000000e+04*(((var*var)*(var*var))*((var*var)*(var*var)))+1.0000000000000000e+00", chars!"1.0+32768*x^16-(128.0)*x^2+(84480.0)*x^8-(131072.0)*x^14+(212992.0)*x^12-(180224.0)*x^10-(21504.0)*x^6+(2688.0)*x^4", chars!"1.0+32768 x^{16}-{(128.0)} x^{2}+{(84480.0)} x^{8}-{(131072.0)} x^{14}+{(212992.0)} x^{12}-{(180224.0)} x^{10}-{(21504.0)} x^{6}+{(2688.0)} x^{4}"⟩
/-- Chebyshev.hh:503-523, class `Chebyshev_17`. -/
def Chebyshev_17 : ClassText := ⟨"", chars!" 1.7000000000000000e+01*var+-7.1808000000000000e+04*(var*(var*var*var)*(var*var*var))+65536.0*(var*(((var*var)*(var*var))*((var*var)*(var*var)))*(((var*var)*(var*var))*((var*var)*(var*var))))+1.1424000000000000e+04*(var*(var*var)*(var*var))+-2.7852800000000000e+05*(var*(var*(var*var*var)*(var*var*var))*(var*(var*var*var)*(var*var*var)))+4.8742400000000000e+05*(var*((var*var*var)*(var*var*var))*((var*var*var)*(var*var*var)))+-8.1600000000000000e+02*(var*var*var)+2.3936000000000000e+05*(var*((var*var)*(var*var))*((var*var)*(var*var)))+-4.5260800000000000e+05*(var*(var*(var*var)*(var*var))*(var*(var*var)*(var*var)))", chars!" 1.7000000000000000e+01*var+-7.1808000000000000e+04*(var*(var*var*var)*(var*var*var))+65536.0*(var*(((var*var)*(var*var))*((var*var)*(var*var)))*(((var*var)*(var*var))*((var*var)*(var*var))))+1.1424000000000000e+04*(var*(var*var)*(var*var))+-2.7852800000000000e+05*(var*(var*(var*var*var)*(var*var*var))*(var*(var*var*var)*(var*var*var)))+4.8742400000000000e+05*(var*((var*var*var)*(var*var*var))*((var*var*var)*(var*var*var)))+-8.1600000000000000e+02*(var*var*var)+2.3936000000000000e+05*(var*((var*var)*(var*var))*((var*var)*(var*var)))+-4.5260800000000000e+05*(var*(var*(var*var)*(var*var))*(var*(var*var)*(var*var)))", chars!"-(816.0)*x^3-(278528.0)*x^15+(487424.0)*x^13-(452608.0)*x^11+(239360.0)*x^9+(17.0)*x-(71808.0)*x^7+65536*x^17+(11424.0)*x^5", chars!"-{(816.0)} x^{3}-{(278528.0)} x^{15}+{(487424.0)} x^{13}-{(452608.0)} x^{11}+{(239360.0)} x^{9}+{(17.0)} x-{(71808.0)} x^{7}+65536 x^{17}+{(11424.0)} x^{5}"⟩
/-- Chebyshev.hh:532-552, class `Chebyshev_18`. -/
def Chebyshev_18 : ClassText := ⟨"", chars!" 1.1059200000000000e+06*((var*(var*var*var)*(var*var*var))*(var*(var*var*var)*(var*var*var)))+131072.0*((var*((var*var)*(var*var))*((var*var)*(var*var)))*(var*((var*var)*(var*var))*((var*var)*(var*var))))+6.5894400000000000e+05*((var*(var*var)*(var*var))*(var*(var*var)*(var*var)))+-1.1182080000000000e+06*(((var*var*var)*(var*var*var))*((var*var*var)*(var*var*var)))+4.4352000000000000e+04*((var*var*var)*(var*var*var))+-4.3200000000000000e+03*((var*var)*(var*var))+-5.8982400000000000e+05*((((var*var)*(var*var))*((var*var)*(var*var)))*(((var*var)*(var*var))*((var*var)*(var*var))))+1.6200000000000000e+02*(var*var)+-2.2809600000000000e+05*(((var*var)*(var*var))*((var*var)*(var*var)))-1.0000000000000000e+00", chars!" 1.1059200000000000e+06*((var*(var*var*var)*(var*var*var))*(var*(var*var*var)*(var*var*var)))+131072.0*((var*((var*var)*(var*var))*((var*var)*(var*var)))*(var*((var*var)*(var*var))*((var*var)*(var*var))))+6.5894400000000000e+05*((var*(var*var)*(var*var))*(var*(var*var)*(var*var)))+-1.1182080000000000e+06*(((var*var*var)*(var*var*var))*((var*var*var)*(var*var*var)))+4.4352000000000000e+04*((var*var*var)*(var*var*var))+-4.3200000000000000e+03*((var*var)*(var*var))+-5.8982400000000000e+05*((((var*var)*(var*var))*((var*var)*(var*var)))*(((var*var)*(var*var))*((var*var)*(var*var))))+1.6200000000000000e+02*(var*var)+-2.2809600000000000e+05*(((var*var)*(var*var))*((var*var)*(var*var)))-1.0000000000000000e+00", chars!"-1.0-(589824.0)*x^16+(162.0)*x^2-(228096.0)*x^8+131072*x^18+(1105920.0)*x^14-(1118208.0)*x^12+(658944.0)*x^10+(44352.0)*x^6-(4320.0)*x^4", chars!"-1.0-{(589824.0)} x^{16}+{(162.0)} x^{2}-{(228096.0)} x^{8}+131072 x^{18}+{(1105920.0)} x^{14}-{(1118208.0)} x^{12}+{(658944.0)} x^{10}+{(44352.0)} x^{6}-{(4320.0)} x^{4}"⟩
/-- Chebyshev.hh:561-581, class `Chebyshev_19`. -/
def Chebyshev_19 : ClassText := ⟨"", chars!" -1.9000000000000000e+01*var+1.6051200000000000e+05*(var*(var*var*var)*(var*var*var))+-1.2451840000000000e+06*(var*(((var*var)*(var*var))*((var*var)*(var*var)))*(((var*var)*(var*var))*((var*var)*(var*var))))+-2.0064000000000000e+04*(var*(var*var)*(var*var))+2.4903680000000000e+06*(var*(var*(var*var*var)*(var*var*var))*(var*(var*var*var)*(var*var*var)))+-2.7238400000000000e+06*(var*((var*var*var)*(var*var*var))*((var*var*var)*(var*var*var)))+1.1400000000000000e+03*(var*var*var)+-6.9555200000000000e+05*(var*((var*var)*(var*var))*((var*var)*(var*var)))+1.7704960000000000e+06*(var*(var*(var*var)*(var*var))*(var*(var*var)*(var*var)))+262144.0*(var*(var*((var*var)*(var*var))*((var*var)*(var*var)))*(var*((var*var)*(var*var))*((var*var)*(var*var))))", chars!" -1.9000000000000000e+01*var+1.6051200000000000e+05*(var*(var*var*var)*(var*var*var))+-1.2451840000000000e+06*(var*(((var*var)*(var*var))*((var*var)*(var*var)))*(((var*var)*(var*var))*((var*var)*(var*var))))+-2.0064000000000000e+04*(var*(var*var)*(var*var))+2.4903680000000000e+06*(var*(var*(var*var*var)*(var*var*var))*(var*(var*var*var)*(var*var*var)))+-2.7238400000000000e+06*(var*((var*var*var)*(var*var*var))*((var*var*var)*(var*var*var)))+1.1400000000000000e+03*(var*var*var)+-6.9555200000000000e+05*(var*((var*var)*(var*var))*((var*var)*(var*var)))+1.7704960000000000e+06*(var*(var*(var*var)*(var*var))*(var*(var*var)*(var*var)))+262144.0*(var*(var*((var*var)*(var*var))*((var*var)*(var*var)))*(var*((var*var)*(var*var))*((var*var)*(var*var))))", chars!"(1140.0)*x^3+(2490368.0)*x^15-(2723840.0)*x^13+(1770496.0)*x^11-(695552.0)*x^9+262144*x^19-(19.0)*x+(160512.0)*x^7-(1245184.0)*x^17-(20064.0)*x^5", chars!"{(1140.0)} x^{3}+{(2490368.0)} x^{15}-{(2723840.0)} x^{13}+{(1770496.0)} x^{11}-{(695552.0)} x^{9}+262144 x^{19}-{(19.0)} x+{(160512.0)} x^{7}-{(1245184.0)} x^{17}-{(20064.0)} x^{5}"⟩
/-- Chebyshev.hh:590-610, class `Chebyshev_20`. -/
def Chebyshev_20 : ClassText := ⟨"", chars!" -6.5536000000000000e+06*((var*(var*var*var)*(var*var*var))*(var*(var*var*var)*(var*var*var)))+-2.6214400000000000e+06*((var*((var*var)*(var*var))*((var*var)*(var*var)))*(var*((var*var)*(var*var))*((var*var)*(var*var))))+-2.0500480000000000e+06*((var*(var*var)*(var*var))*(var*(var*var)*(var*var)))+4.6592000000000000e+06*(((var*var*var)*(var*var*var))*((var*var*var)*(var*var*var)))+-8.4480000000000000e+04*((var*var*var)*(var*var*var))+6.6000000000000000e+03*((var*var)*(var*var))+5.5705600000000000e+06*((((var*var)*(var*var))*((var*var)*(var*var)))*(((var*var)*(var*var))*((var*var)*(var*var))))+524288.0*(((var*(var*var)*(var*var))*(var*(var*var)*(var*var)))*((var*(var*var)*(var*var))*(var*(var*var)*(var*var))))+-2.0000000000000000e+02*(var*var)+5.4912000000000000e+05*(((var*var)*(var*var))*((var*var)*(var*var)))+1.0000000000000000e+00", chars!" -6.5536000000000000e+06*((var*(var*var*var)*(var*var*var))*(var*(var*var*var)*(var*var*var)))+-2.6214400000000000e+06*((var*((var*var)*(var*var))*((var*var)*(var*var)))*(var*((var*var)*(var*var))*((var*var)*(var*var))))+-2.0500480000000000e+06*((var*(var*var)*(var*var))*(var*(var*var)*(var*var)))+4.6592000000000000e+06*(((var*var*var)*(var*var*var))*((var*var*var)*(var*var*var)))+-8.4480000000000000e+04*((var*var*var)*(var*var*var))+6.6000000000000000e+03*((var*var)*(var*var))+5.5705600000000000e+06*((((var*var)*(var*var))*((var*var)*(var*var)))*(((var*var)*(var*var))*((var*var)*(var*var))))+524288.0*(((var*(var*var)*(var*var))*(var*(var*var)*(var*var)))*((var*(var*var)*(var*var))*(var*(var*var)*(var*var))))+-2.0000000000000000e+02*(var*var)+5.4912000000000000e+05*(((var*var)*(var*var))*((var*var)*(var*var)))+1.0000000000000000e+00", chars!"1.0+524288*x^20+(5570560.0)*x^16-(200.0)*x^2+(549120.0)*x^8-(2621440.0)*x^18-(6553600.0)*x^14+(4659200.0)*x^12-(2050048.0)*x^10-(84480.0)*x^6+(6600.0)*x^4", chars!"1.0+524288 x^{20}+{(5570560.0)} x^{16}-{(200.0)} x^{2}+{(549120.0)} x^{8}-{(2621440.0)} x^{18}-{(6553600.0)} x^{14}+{(4659200.0)} x^{12}-{(2050048.0)} x^{10}-{(84480.0)} x^{6}+{(6600.0)} x^{4}"⟩
/-- Chebyshev.hh:619-639, class `Chebyshev_21`. -/
def Chebyshev_21 : ClassText := ⟨"", chars!" 2.1000000000000000e+01*var+1048576.0*(var*((var*(var*var)*(var*var))*(var*(var*var)*(var*var)))*((var*(var*var)*(var*var))*(var*(var*var)*(var*var))))+-3.2947200000000000e+05*(var*(var*var*var)*(var*var*var))+1.2386304000000000e+07*(var*(((var*var)*(var*var))*((var*var)*(var*var)))*(((var*var)*(var*var))*((var*var)*(var*var))))+3.3264000000000000e+04*(var*(var*var)*(var*var))+-1.5597568000000000e+07*(var*(var*(var*var*var)*(var*var*var))*(var*(var*var*var)*(var*var*var)))+1.2042240000000000e+07*(var*((var*var*var)*(var*var*var))*((var*var*var)*(var*var*var)))+-1.5400000000000000e+03*(var*var*var)+1.7937920000000000e+06*(var*((var*var)*(var*var))*((var*var)*(var*var)))+-5.8705920000000000e+06*(var*(var*(var*var)*(var*var))*(var*(var*var)*(var*var)))+-5.5050240000000000e+06*(var*(var*((var*var)*(var*var))*((var*var)*(var*var)))*(var*((var*var)*(var*var))*((var*var)*(var*var))))", chars!" 2.1000000000000000e+01*var+1048576.0*(var*((var*(var*var)*(var*var))*(var*(var*var)*(var*var)))*((var*(var*var)*(var*var))*(var*(var*var)*(var*var))))+-3.2947200000000000e+05*(var*(var*var*var)*(var*var*var))+1.2386304000000000e+07*(var*(((var*var)*(var*var))*((var*var)*(var*var)))*(((var*var)*(var*var))*((var*var)*(var*var))))+3.3264000000000000e+04*(var*(var*var)*(var*var))+-1.5597568000000000e+07*(var*(var*(var*var*var)*(var*var*var))*(var*(var*var*var)*(var*var*var)))+1.2042240000000000e+07*(var*((var*var*var)*(var*var*var))*((var*var*var)*(var*var*var)))+-1.5400000000000000e+03*(var*var*var)+1.7937920000000000e+06*(var*((var*var)*(var*var))*((var*var)*(var*var)))+-5.8705920000000000e+06*(var*(var*(var*var)*(var*var))*(var*(var*var)*(var*var)))+-5.5050240000000000e+06*(var*(var*((var*var)*(var*var))*((var*var)*(var*var)))*(var*((var*var)*(var*var))*((var*var)*(var*var))))", chars!"-(1540.0)*x^3-(1.5597568E7)*x^15+(1.204224E7)*x^13-(5870592.0)*x^11+(1793792.0)*x^9-(5505024.0)*x^19+1048576*x^21+(21.0)*x-(329472.0)*x^7+(1.2386304E7)*x^17+(33264.0)*x^5", chars!"-{(1540.0)} x^{3}-{(1.5597568E7)} x^{15}+{(1.204224E7)} x^{13}-{(5870592.0)} x^{11}+{(1793792.0)} x^{9}-{(5505024.0)} x^{19}+1048576 x^{21}+{(21.0)} x-{(329472.0)} x^{7}+{(1.2386304E7)} x^{17}+{(33264.0)} x^{5}"⟩
/-- Chebyshev.hh:648-668, class `Chebyshev_22`. -/
def Chebyshev_22 : ClassText := ⟨"", chars!" 3.0638080000000000e+07*((var*(var*var*var)*(var*var*var))*(var*(var*var*var)*(var*var*var)))+2.7394048000000000e+07*((var*((var*var)*(var*var))*((var*var)*(var*var)))*(var*((var*var)*(var*var))*((var*var)*(var*var))))+5.6376320000000000e+06*((var*(var*var)*(var*var))*(var*(var*var)*(var*var)))+-1.6400384000000000e+07*(((var*var*var)*(var*var*var))*((var*var*var)*(var*var*var)))+1.5100800000000000e+05*((var*var*var)*(var*var*var))+-9.6800000000000000e+03*((var*var)*(var*var))+2097152.0*((var*(var*(var*var)*(var*var))*(var*(var*var)*(var*var)))*(var*(var*(var*var)*(var*var))*(var*(var*var)*(var*var))))+-3.6765696000000000e+07*((((var*var)*(var*var))*((var*var)*(var*var)))*(((var*var)*(var*var))*((var*var)*(var*var))))+-1.1534336000000000e+07*(((var*(var*var)*(var*var))*(var*(var*var)*(var*var)))*((var*(var*var)*(var*var))*(var*(var*var)*(var*var))))+2.4200000000000000e+02*(var*var)+-1.2080640000000000e+06*(((var*var)*(var*var))*((var*var)*(var*var)))-1.0000000000000000e+00", chars!" 3.0638080000000000e+07*((var*(var*var*var)*(var*var*var))*(var*(var*var*var)*(var*var*var)))+2.7394048000000000e+07*((var*((var*var)*(var*var))*((var*var)*(var*var)))*(var*((var*var)*(var*var))*((var*var)*(var*var))))+5.6376320000000000e+06*((var*(var*var)*(var*var))*(var*(var*var)*(var*var)))+-1.6400384000000000e+07*(((var*var*var)*(var*var*var))*((var*var*var)*(var*var*var)))+1.5100800000000000e+05*((var*var*var)*(var*var*var))+-9.6800000000000000e+03*((var*var)*(var*var))+2097152.0*((var*(var*(var*var)*(var*var))*(var*(var*var)*(var*var)))*(var*(var*(var*var)*(var*var))*(var*(var*var)*(var*var))))+-3.6765696000000000e+07*((((var*var)*(var*var))*((var*var)*(var*var)))*(((var*var)*(var*var))*((var*var)*(var*var))))+-1.1534336000000000e+07*(((var*(var*var)*(var*var))*(var*(var*var)*(var*var)))*((var*(var*var)*(var*var))*(var*(var*var)*(var*var))))+2.4200000000000000e+02*(var*var)+-1.2080640000000000e+06*(((var*var)*(var*var))*((var*var)*(var*var)))-1.0000000000000000e+00", chars!"-1.0-(1.1534336E7)*x^20-(3.6765696E7)*x^16+(242.0)*x^2-(1208064.0)*x^8+(2.7394048E7)*x^18+(3.063808E7)*x^14-(1.6400384E7)*x^12+(5637632.0)*x^10+(151008.0)*x^6-(9680.0)*x^4+2097152*x^22", chars!"-1.0-{(1.1534336E7)} x^{20}-{(3.6765696E7)} x^{16}+{(242.0)} x^{2}-{(1208064.0)} x^{8}+{(2.7394048E7)} x^{18}+{(3.063808E7)} x^{14}-{(1.6400384E7)} x^{12}+{(5637632.0)} x^{10}+{(151008.0)} x^{6}-{(9680.0)} x^{4}+2097152 x^{22}"⟩
/-- Chebyshev.hh:677-697, class `Chebyshev_23`. -/
def Chebyshev_23 : ClassText := ⟨"", chars!" -2.3000000000000000e+01*var+4194304.0*(var*(var*(var*(var*var)*(var*var))*(var*(var*var)*(var*var)))*(var*(var*(var*var)*(var*var))*(var*(var*var)*(var*var))))+-2.4117248000000000e+07*(var*((var*(var*var)*(var*var))*(var*(var*var)*(var*var)))*((var*(var*var)*(var*var))*(var*(var*var)*(var*var))))+6.3148800000000000e+05*(var*(var*var*var)*(var*var*var))+-8.5917696000000000e+07*(var*(((var*var)*(var*var))*((var*var)*(var*var)))*(((var*var)*(var*var))*((var*var)*(var*var))))+-5.2624000000000000e+04*(var*(var*var)*(var*var))+7.6873728000000000e+07*(var*(var*(var*var*var)*(var*var*var))*(var*(var*var*var)*(var*var*var)))+-4.4843008000000000e+07*(var*((var*var*var)*(var*var*var))*((var*var*var)*(var*var*var)))+2.0240000000000000e+03*(var*var*var)+-4.2099200000000000e+06*(var*((var*var)*(var*var))*((var*var)*(var*var)))+1.7145856000000000e+07*(var*(var*(var*var)*(var*var))*(var*(var*var)*(var*var)))+6.0293120000000000e+07*(var*(var*((var*var)*(var*var))*((var*var)*(var*var)))*(var*((var*var)*(var*var))*((var*var)*(var*var))))", chars!" -2.3000000000000000e+01*var+4194304.0*(var*(var*(var*(var*var)*(var*var))*(var*(var*var)*(var*var)))*(var*(var*(var*var)*(var*var))*(var*(var*var)*(var*var))))+-2.4117248000000000e+07*(var*((var*(var*var)*(var*var))*(var*(var*var)*(var*var)))*((var*(var*var)*(var*var))*(var*(var*var)*(var*var))))+6.3148800000000000e+05*(var*(var*var*var)*(var*var*var))+-8.5917696000000000e+07*(var*(((var*var)*(var*var))*((var*var)*(var*var)))*(((var*var)*(var*var))*((var*var)*(var*var))))+-5.2624000000000000e+04*(var*(var*var)*(var*var))+7.6873728000000000e+07*(var*(var*(var*var*var)*(var*var*var))*(var*(var*var*var)*(var*var*var)))+-4.4843008000000000e+07*(var*((var*var*var)*(var*var*var))*((var*var*var)*(var*var*var)))+2.0240000000000000e+03*(var*var*var)+-4.2099200000000000e+06*(var*((var*var)*(var*var))*((var*var)*(var*var)))+1.7145856000000000e+07*(var*(var*(var*var)*(var*var))*(var*(var*var)*(var*var)))+6.0293120000000000e+07*(var*(var*((var*var)*(var*var))*((var*var)*(var*var)))*(var*((var*var)*(var*var))*((var*var)*(var*var))))", chars!"(2024.0)*x^3+(7.6873728E7)*x^15-(4.4843008E7)*x^13+(1.7145856E7)*x^11-(4209920.0)*x^9+(6.029312E7)*x^19+4194304*x^23-(2.4117248E7)*x^21-(23.0)*x+(631488.0)*x^7-(8.5917696E7)*x^17-(52624.0)*x^5", chars!"{(2024.0)} x^{3}+{(7.6873728E7)} x^{15}-{(4.4843008E7)} x^{13}+{(1.7145856E7)} x^{11}-{(4209920.0)} x^{9}+{(6.029312E7)} x^{19}+4194304 x^{23}-{(2.4117248E7)} x^{21}-{(23.0)} x+{(631488.0)} x^{7}-{(8.5917696E7)} x^{17}-{(52624.0)} x^{5}"⟩
/-- Chebyshev.hh:706-726, class `Chebyshev_24`. -/
def Chebyshev_24 : ClassText := ⟨"", chars!" -1.2032409600000000e+08*((var*(var*var*var)*(var*var*var))*(var*(var*var*var)*(var*var*var)))+-1.9922944000000000e+08*((var*((var*var)*(var*var))*((var*var)*(var*var)))*(var*((var*var)*(var*var))*((var*var)*(var*var))))+-1.4057472000000000e+07*((var*(var*var)*(var*var))*(var*(var*var)*(var*var)))+5.0692096000000000e+07*(((var*var*var)*(var*var*var))*((var*var*var)*(var*var*var)))+-2.5625600000000000e+05*((var*var*var)*(var*var*var))+1.3728000000000000e+04*((var*var)*(var*var))+-5.0331648000000000e+07*((var*(var*(var*var)*(var*var))*(var*(var*var)*(var*var)))*(var*(var*(var*var)*(var*var))*(var*(var*var)*(var*var))))+1.9051315200000000e+08*((((var*var)*(var*var))*((var*var)*(var*var)))*(((var*var)*(var*var))*((var*var)*(var*var))))+1.3212057600000000e+08*(((var*(var*var)*(var*var))*(var*(var*var)*(var*var)))*((var*(var*var)*(var*var))*(var*(var*var)*(var*var))))+-2.8800000000000000e+02*(var*var)+2.4710400000000000e+06*(((var*var)*(var*var))*((var*var)*(var*var)))+8388608.0*((((var*var*var)*(var*var*var))*((var*var*var)*(var*var*var)))*(((var*var*var)*(var*var*var))*((var*var*var)*(var*var*var))))+1.0000000000000000e+00", chars!" -1.2032409600000000e+08*((var*(var*var*var)*(var*var*var))*(var*(var*var*var)*(var*var*var)))+-1.9922944000000000e+08*((var*((var*var)*(var*var))*((var*var)*(var*var)))*(var*((var*var)*(var*var))*((var*var)*(var*var))))+-1.4057472000000000e+07*((var*(var*var)*(var*var))*(var*(var*var)*(var*var)))+5.0692096000000000e+07*(((var*var*var)*(var*var*var))*((var*var*var)*(var*var*var)))+-2.5625600000000000e+05*((var*var*var)*(var*var*var))+1.3728000000000000e+04*((var*var)*(var*var))+-5.0331648000000000e+07*((var*(var*(var*var)*(var*var))*(var*(var*var)*(var*var)))*(var*(var*(var*var)*(var*var))*(var*(var*var)*(var*var))))+1.9051315200000000e+08*((((var*var)*(var*var))*((var*var)*(var*var)))*(((var*var)*(var*var))*((var*var)*(var*var))))+1.3212057600000000e+08*(((var*(var*var)*(var*var))*(var*(var*var)*(var*var)))*((var*(var*var)*(var*var))*(var*(var*var)*(var*var))))+-2.8800000000000000e+02*(var*var)+2.4710400000000000e+06*(((var*var)*(var*var))*((var*var)*(var*var)))+8388608.0*((((var*var*var)*(var*var*var))*((var*var*var)*(var*var*var)))*(((var*var*var)*(var*var*var))*((var*var*var)*(var*var*var))))+1.0000000000000000e+00", chars!"1.0+(1.32120576E8)*x^20+(1.90513152E8)*x^16-(288.0)*x^2+(2471040.0)*x^8+8388608*x^24-(1.9922944E8)*x^18-(1.20324096E8)*x^14+(5.0692096E7)*x^12-(1.4057472E7)*x^10-(256256.0)*x^6+(13728.0)*x^4-(5.0331648E7)*x^22", chars!"1.0+{(1.32120576E8)} x^{20}+{(1.90513152E8)} x^{16}-{(288.0)} x^{2}+{(2471040.0)} x^{8}+8388608 x^{24}-{(1.9922944E8)} x^{18}-{(1.20324096E8)} x^{14}+{(5.0692096E7)} x^{12}-{(1.4057472E7)} x^{10}-{(256256.0)} x^{6}+{(13728.0)} x^{4}-{(5.0331648E7)} x^{22}"⟩
/-- Chebyshev.hh:735-755, class `Chebyshev_25`. -/
def Chebyshev_25 : ClassText := ⟨"", chars!" 2.5000000000000000e+01*var+-1.0485760000000000e+08*(var*(var*(var*(var*var)*(var*var))*(var*(var*var)*(var*var)))*(var*(var*(var*var)*(var*var))*(var*(var*var)*(var*var))))+2.8835840000000000e+08*(var*((var*(var*var)*(var*var))*(var*(var*var)*(var*var)))*((var*(var*var)*(var*var))*(var*(var*var)*(var*var))))+-1.1440000000000000e+06*(var*(var*var*var)*(var*var*var))+4.6694400000000000e+08*(var*(((var*var)*(var*var))*((var*var)*(var*var)))*(((var*var)*(var*var))*((var*var)*(var*var))))+8.0080000000000000e+04*(var*(var*var)*(var*var))+-3.1752192000000000e+08*(var*(var*(var*var*var)*(var*var*var))*(var*(var*var*var)*(var*var*var)))+1.4622720000000000e+08*(var*((var*var*var)*(var*var*var))*((var*var*var)*(var*var*var)))+-2.6000000000000000e+03*(var*var*var)+16777216.0*(var*(((var*var*var)*(var*var*var))*((var*var*var)*(var*var*var)))*(((var*var*var)*(var*var*var))*((var*var*var)*(var*var*var))))+9.1520000000000000e+06*(var*((var*var)*(var*var))*((var*var)*(var*var)))+-4.5260800000000000e+07*(var*(var*(var*var)*(var*var))*(var*(var*var)*(var*var)))+-4.5875200000000000e+08*(var*(var*((var*var)*(var*var))*((var*var)*(var*var)))*(var*((var*var)*(var*var))*((var*var)*(var*var))))", chars!" 2.5000000000000000e+01*var+-1.0485760000000000e+08*(var*(var*(var*(var*var)*(var*var))*(var*(var*var)*(var*var)))*(var*(var*(var*var)*(var*var))*(var*(var*var)*(var*var))))+2.8835840000000000e+08*(var*((var*(var*var)*(var*var))*(var*(var*var)*(var*var)))*((var*(var*var)*(var*var))*(var*(var*var)*(var*var))))+-1.1440000000000000e+06*(var*(var*var*var)*(var*var*var))+4.6694400000000000e+08*(var*(((var*var)*(var*var))*((var*var)*(var*var)))*(((var*var)*(var*var))*((var*var)*(var*var))))+8.0080000000000000e+04*(var*(var*var)*(var*var))+-3.1752192000000000e+08*(var*(var*(var*var*var)*(var*var*var))*(var*(var*var*var)*(var*var*var)))+1.4622720000000000e+08*(var*((var*var*var)*(var*var*var))*((var*var*var)*(var*var*var)))+-2.6000000000000000e+03*(var*var*var)+16777216.0*(var*(((var*var*var)*(var*var*var))*((var*var*var)*(var*var*var)))*(((var*var*var)*(var*var*var))*((var*var*var)*(var*var*var))))+9.1520000000000000e+06*(var*((var*var)*(var*var))*((var*var)*(var*var)))+-4.5260800000000000e+07*(var*(var*(var*var)*(var*var))*(var*(var*var)*(var*var)))+-4.5875200000000000e+08*(var*(var*((var*var)*(var*var))*((var*var)*(var*var)))*(var*((var*var)*(var*var))*((var*var)*(var*var))))", chars!"-(2600.0)*x^3-(3.1752192E8)*x^15+(1.462272E8)*x^13-(4.52608E7)*x^11+16777216*x^25+(9152000.0)*x^9-(4.58752E8)*x^19-(1.048576E8)*x^23+(2.883584E8)*x^21+(25.0)*x-(1144000.0)*x^7+(4.66944E8)*x^17+(80080.0)*x^5", chars!"-{(2600.0)} x^{3}-{(3.1752192E8)} x^{15}+{(1.462272E8)} x^{13}-{(4.52608E7)} x^{11}+16777216 x^{25}+{(9152000.0)} x^{9}-{(4.58752E8)} x^{19}-{(1.048576E8)} x^{23}+{(2.883584E8)} x^{21}+{(25.0)} x-{(1144000.0)} x^{7}+{(4.66944E8)} x^{17}+{(80080.0)} x^{5}"⟩
/-- Chebyshev.hh:764-784, class `Chebyshev_26`. -/
def Chebyshev_26 : ClassText := ⟨"", chars!" 4.1277849600000000e+08*((var*(var*var*var)*(var*var*var))*(var*(var*var*var)*(var*var*var)))+1.1331174400000000e+09*((var*((var*var)*(var*var))*((var*var)*(var*var)))*(var*((var*var)*(var*var))*((var*var)*(var*var))))+3.2361472000000000e+07*((var*(var*var)*(var*var))*(var*(var*var)*(var*var)))+-1.4121369600000000e+08*(((var*var*var)*(var*var*var))*((var*var*var)*(var*var*var)))+4.1641600000000000e+05*((var*var*var)*(var*var*var))+-1.8928000000000000e+04*((var*var)*(var*var))+6.2704844800000000e+08*((var*(var*(var*var)*(var*var))*(var*(var*var)*(var*var)))*(var*(var*(var*var)*(var*var))*(var*(var*var)*(var*var))))+33554432.0*((var*((var*var*var)*(var*var*var))*((var*var*var)*(var*var*var)))*(var*((var*var*var)*(var*var*var))*((var*var*var)*(var*var*var))))+-8.2555699200000000e+08*((((var*var)*(var*var))*((var*var)*(var*var)))*(((var*var)*(var*var))*((var*var)*(var*var))))+-1.0496245760000000e+09*(((var*(var*var)*(var*var))*(var*(var*var)*(var*var)))*((var*(var*var)*(var*var))*(var*(var*var)*(var*var))))+3.3800000000000000e+02*(var*var)+-4.7590400000000000e+06*(((var*var)*(var*var))*((var*var)*(var*var)))+-2.1810380800000000e+08*((((var*var*var)*(var*var*var))*((var*var*var)*(var*var*var)))*(((var*var*var)*(var*var*var))*((var*var*var)*(var*var*var))))-1.0000000000000000e+00", chars!" 4.1277849600000000e+08*((var*(var*var*var)*(var*var*var))*(var*(var*var*var)*(var*var*var)))+1.1331174400000000e+09*((var*((var*var)*(var*var))*((var*var)*(var*var)))*(var*((var*var)*(var*var))*((var*var)*(var*var))))+3.2361472000000000e+07*((var*(var*var)*(var*var))*(var*(var*var)*(var*var)))+-1.4121369600000000e+08*(((var*var*var)*(var*var*var))*((var*var*var)*(var*var*var)))+4.1641600000000000e+05*((var*var*var)*(var*var*var))+-1.8928000000000000e+04*((var*var)*(var*var))+6.2704844800000000e+08*((var*(var*(var*var)*(var*var))*(var*(var*var)*(var*var)))*(var*(var*(var*var)*(var*var))*(var*(var*var)*(var*var))))+33554432.0*((var*((var*var*var)*(var*var*var))*((var*var*var)*(var*var*var)))*(var*((var*var*var)*(var*var*var))*((var*var*var)*(var*var*var))))+-8.2555699200000000e+08*((((var*var)*(var*var))*((var*var)*(var*var)))*(((var*var)*(var*var))*((var*var)*(var*var))))+-1.0496245760000000e+09*(((var*(var*var)*(var*var))*(var*(var*var)*(var*var)))*((var*(var*var)*(var*var))*(var*(var*var)*(var*var))))+3.3800000000000000e+02*(var*var)+-4.7590400000000000e+06*(((var*var)*(var*var))*((var*var)*(var*var)))+-2.1810380800000000e+08*((((var*var*var)*(var*var*var))*((var*var*var)*(var*var*var)))*(((var*var*var)*(var*var*var))*((var*var*var)*(var*var*var))))-1.0000000000000000e+00", chars!"-1.0-(1.049624576E9)*x^20-(8.25556992E8)*x^16+(338.0)*x^2-(4759040.0)*x^8-(2.18103808E8)*x^24+(1.13311744E9)*x^18+(4.12778496E8)*x^14-(1.41213696E8)*x^12+(3.2361472E7)*x^10+(416416.0)*x^6+33554432*x^26-(18928.0)*x^4+(6.27048448E8)*x^22", chars!"-1.0-{(1.049624576E9)} x^{20}-{(8.25556992E8)} x^{16}+{(338.0)} x^{2}-{(4759040.0)} x^{8}-{(2.18103808E8)} x^{24}+{(1.13311744E9)} x^{18}+{(4.12778496E8)} x^{14}-{(1.41213696E8)} x^{12}+{(3.2361472E7)} x^{10}+{(416416.0)} x^{6}+33554432 x^{26}-{(18928.0)} x^{4}+{(6.27048448E8)} x^{22}"⟩
/-- Chebyshev.hh:793-813, class `Chebyshev_27`. -/
def Chebyshev_27 : ClassText := ⟨"", chars!" -2.7000000000000000e+01*var+1.3589544960000000e+09*(var*(var*(var*(var*var)*(var*var))*(var*(var*var)*(var*var)))*(var*(var*(var*var)*(var*var))*(var*(var*var)*(var*var))))+67108864.0*(var*(var*((var*var*var)*(var*var*var))*((var*var*var)*(var*var*var)))*(var*((var*var*var)*(var*var*var))*((var*var*var)*(var*var*var))))+-2.3876075520000000e+09*(var*((var*(var*var)*(var*var))*(var*(var*var)*(var*var)))*((var*(var*var)*(var*var))*(var*(var*var)*(var*var))))+1.9768320000000000e+06*(var*(var*var*var)*(var*var*var))+-2.1180579840000000e+09*(var*(((var*var)*(var*var))*((var*var)*(var*var)))*(((var*var)*(var*var))*((var*var)*(var*var))))+-1.1793600000000000e+05*(var*(var*var)*(var*var))+1.1430789120000000e+09*(var*(var*(var*var*var)*(var*var*var))*(var*(var*var*var)*(var*var*var)))+-4.2865459200000000e+08*(var*((var*var*var)*(var*var*var))*((var*var*var)*(var*var*var)))+3.2760000000000000e+03*(var*var*var)+-4.5298483200000000e+08*(var*(((var*var*var)*(var*var*var))*((var*var*var)*(var*var*var)))*(((var*var*var)*(var*var*var))*((var*var*var)*(var*var*var))))+-1.8670080000000000e+07*(var*((var*var)*(var*var))*((var*var)*(var*var)))+1.0998374400000000e+08*(var*(var*(var*var)*(var*var))*(var*(var*var)*(var*var)))+2.7249868800000000e+09*(var*(var*((var*var)*(var*var))*((var*var)*(var*var)))*(var*((var*var)*(var*var))*((var*var)*(var*var))))", chars!" -2.7000000000000000e+01*var+1.3589544960000000e+09*(var*(var*(var*(var*var)*(var*var))*(var*(var*var)*(var*var)))*(var*(var*(var*var)*(var*var))*(var*(var*var)*(var*var))))+67108864.0*(var*(var*((var*var*var)*(var*var*var))*((var*var*var)*(var*var*var)))*(var*((var*var*var)*(var*var*var))*((var*var*var)*(var*var*var))))+-2.3876075520000000e+09*(var*((var*(var*var)*(var*var))*(var*(var*var)*(var*var)))*((var*(var*var)*(var*var))*(var*(var*var)*(var*var))))+1.9768320000000000e+06*(var*(var*var*var)*(var*var*var))+-2.1180579840000000e+09*(var*(((var*var)*(var*var))*((var*var)*(var*var)))*(((var*var)*(var*var))*((var*var)*(var*var))))+-1.1793600000000000e+05*(var*(var*var)*(var*var))+1.1430789120000000e+09*(var*(var*(var*var*var)*(var*var*var))*(var*(var*var*var)*(var*var*var)))+-4.2865459200000000e+08*(var*((var*var*var)*(var*var*var))*((var*var*var)*(var*var*var)))+3.2760000000000000e+03*(var*var*var)+-4.5298483200000000e+08*(var*(((var*var*var)*(var*var*var))*((var*var*var)*(var*var*var)))*(((var*var*var)*(var*var*var))*((var*var*var)*(var*var*var))))+-1.8670080000000000e+07*(var*((var*var)*(var*var))*((var*var)*(var*var)))+1.0998374400000000e+08*(var*(var*(var*var)*(var*var))*(var*(var*var)*(var*var)))+2.7249868800000000e+09*(var*(var*((var*var)*(var*var))*((var*var)*(var*var)))*(var*((var*var)*(var*var))*((var*var)*(var*var))))", chars!"(3276.0)*x^3+(1.143078912E9)*x^15-(4.28654592E8)*x^13+(1.09983744E8)*x^11-(4.52984832E8)*x^25-(1.867008E7)*x^9+(2.72498688E9)*x^19+67108864*x^27+(1.358954496E9)*x^23-(2.387607552E9)*x^21-(27.0)*x+(1976832.0)*x^7-(2.118057984E9)*x^17-(117936.0)*x^5", chars!"{(3276.0)} x^{3}+{(1.143078912E9)} x^{15}-{(4.28654592E8)} x^{13}+{(1.09983744E8)} x^{11}-{(4.52984832E8)} x^{25}-{(1.867008E7)} x^{9}+{(2.72498688E9)} x^{19}+67108864 x^{27}+{(1.358954496E9)} x^{23}-{(2.387607552E9)} x^{21}-{(27.0)} x+{(1976832.0)} x^{7}-{(2.118057984E9)} x^{17}-{(117936.0)} x^{5}"⟩
/-- Chebyshev.hh:822-842, class `Chebyshev_28`. -/
def Chebyshev_28 : ClassText := ⟨"", chars!" -1.2700876800000000e+09*((var*(var*var*var)*(var*var*var))*(var*(var*var*var)*(var*var*var)))+-5.3692334080000000e+09*((var*((var*var)*(var*var))*((var*var)*(var*var)))*(var*((var*var)*(var*var))*((var*var)*(var*var))))+-6.9701632000000000e+07*((var*(var*var)*(var*var))*(var*(var*var)*(var*var)))+3.6118118400000000e+08*(((var*var*var)*(var*var*var))*((var*var*var)*(var*var*var)))+-6.5228800000000000e+05*((var*var*var)*(var*var*var))+2.5480000000000000e+04*((var*var)*(var*var))+-5.4022635520000000e+09*((var*(var*(var*var)*(var*var))*(var*(var*var)*(var*var)))*(var*(var*(var*var)*(var*var))*(var*(var*var)*(var*var))))+-9.3952409600000000e+08*((var*((var*var*var)*(var*var*var))*((var*var*var)*(var*var*var)))*(var*((var*var*var)*(var*var*var))*((var*var*var)*(var*var*var))))+3.1117148160000000e+09*((((var*var)*(var*var))*((var*var)*(var*var)))*(((var*var)*(var*var))*((var*var)*(var*var))))+6.4995983360000000e+09*(((var*(var*var)*(var*var))*(var*(var*var)*(var*var)))*((var*(var*var)*(var*var))*(var*(var*var)*(var*var))))+-3.9200000000000000e+02*(var*var)+8.7127040000000000e+06*(((var*var)*(var*var))*((var*var)*(var*var)))+2.9360128000000000e+09*((((var*var*var)*(var*var*var))*((var*var*var)*(var*var*var)))*(((var*var*var)*(var*var*var))*((var*var*var)*(var*var*var))))+134217728.0*(((var*(var*var*var)*(var*var*var))*(var*(var*var*var)*(var*var*var)))*((var*(var*var*var)*(var*var*var))*(var*(var*var*var)*(var*var*var))))+1.0000000000000000e+00", chars!" -1.2700876800000000e+09*((var*(var*var*var)*(var*var*var))*(var*(var*var*var)*(var*var*var)))+-5.3692334080000000e+09*((var*((var*var)*(var*var))*((var*var)*(var*var)))*(var*((var*var)*(var*var))*((var*var)*(var*var))))+-6.9701632000000000e+07*((var*(var*var)*(var*var))*(var*(var*var)*(var*var)))+3.6118118400000000e+08*(((var*var*var)*(var*var*var))*((var*var*var)*(var*var*var)))+-6.5228800000000000e+05*((var*var*var)*(var*var*var))+2.5480000000000000e+04*((var*var)*(var*var))+-5.4022635520000000e+09*((var*(var*(var*var)*(var*var))*(var*(var*var)*(var*var)))*(var*(var*(var*var)*(var*var))*(var*(var*var)*(var*var))))+-9.3952409600000000e+08*((var*((var*var*var)*(var*var*var))*((var*var*var)*(var*var*var)))*(var*((var*var*var)*(var*var*var))*((var*var*var)*(var*var*var))))+3.1117148160000000e+09*((((var*var)*(var*var))*((var*var)*(var*var)))*(((var*var)*(var*var))*((var*var)*(var*var))))+6.4995983360000000e+09*(((var*(var*var)*(var*var))*(var*(var*var)*(var*var)))*((var*(var*var)*(var*var))*(var*(var*var)*(var*var))))+-3.9200000000000000e+02*(var*var)+8.7127040000000000e+06*(((var*var)*(var*var))*((var*var)*(var*var)))+2.9360128000000000e+09*((((var*var*var)*(var*var*var))*((var*var*var)*(var*var*var)))*(((var*var*var)*(var*var*var))*((var*var*var)*(var*var*var))))+134217728.0*(((var*(var*var*var)*(var*var*var))*(var*(var*var*var)*(var*var*var)))*((var*(var*var*var)*(var*var*var))*(var*(var*var*var)*(var*var*var))))+1.0000000000000000e+00", chars!"1.0+(6.499598336E9)*x^20+(3.111714816E9)*x^16-(392.0)*x^2+(8712704.0)*x^8+134217728*x^28+(2.9360128E9)*x^24-(5.369233408E9)*x^18-(1.27008768E9)*x^14+(3.61181184E8)*x^12-(6.9701632E7)*x^10-(652288.0)*x^6-(9.39524096E8)*x^26+(25480.0)*x^4-(5.402263552E9)*x^22", chars!"1.0+{(6.499598336E9)} x^{20}+{(3.111714816E9)} x^{16}-{(392.0)} x^{2}+{(8712704.0)} x^{8}+134217728 x^{28}+{(2.9360128E9)} x^{24}-{(5.369233408E9)} x^{18}-{(1.27008768E9)} x^{14}+{(3.61181184E8)} x^{12}-{(6.9701632E7)} x^{10}-{(652288.0)} x^{6}-{(9.39524096E8)} x^{26}+{(25480.0)} x^{4}-{(5.402263552E9)} x^{22}"⟩
/-- Chebyshev.hh:851-871, class `Chebyshev_29`. -/
def Chebyshev_29 : ClassText := ⟨"", chars!" 2.9000000000000000e+01*var+-1.2163481600000000e+10*(var*(var*(var*(var*var)*(var*var))*(var*(var*var)*(var*var)))*(var*(var*(var*var)*(var*var))*(var*(var*var)*(var*var))))+-1.9461570560000000e+09*(var*(var*((var*var*var)*(var*var*var))*((var*var*var)*(var*var*var)))*(var*((var*var*var)*(var*var*var))*((var*var*var)*(var*var*var))))+1.5386804224000000e+10*(var*((var*(var*var)*(var*var))*(var*(var*var)*(var*var)))*((var*(var*var)*(var*var))*(var*(var*var)*(var*var))))+-3.2814080000000000e+06*(var*(var*var*var)*(var*var*var))+8.3414876160000000e+09*(var*(((var*var)*(var*var))*((var*var)*(var*var)))*(((var*var)*(var*var))*((var*var)*(var*var))))+1.6889600000000000e+05*(var*(var*var)*(var*var))+-3.6832542720000000e+09*(var*(var*(var*var*var)*(var*var*var))*(var*(var*var*var)*(var*var*var)))+1.1510169600000000e+09*(var*((var*var*var)*(var*var*var))*((var*var*var)*(var*var*var)))+-4.0600000000000000e+03*(var*var*var)+6.3250104320000000e+09*(var*(((var*var*var)*(var*var*var))*((var*var*var)*(var*var*var)))*(((var*var*var)*(var*var*var))*((var*var*var)*(var*var*var))))+3.6095488000000000e+07*(var*((var*var)*(var*var))*((var*var)*(var*var)))+268435456.0*(var*((var*(var*var*var)*(var*var*var))*(var*(var*var*var)*(var*var*var)))*((var*(var*var*var)*(var*var*var))*(var*(var*var*var)*(var*var*var))))+-2.4938700800000000e+08*(var*(var*(var*var)*(var*var))*(var*(var*var)*(var*var)))+-1.3463453696000000e+10*(var*(var*((var*var)*(var*var))*((var*var)*(var*var)))*(var*((var*var)*(var*var))*((var*var)*(var*var))))", chars!" 2.9000000000000000e+01*var+-1.2163481600000000e+10*(var*(var*(var*(var*var)*(var*var))*(var*(var*var)*(var*var)))*(var*(var*(var*var)*(var*var))*(var*(var*var)*(var*var))))+-1.9461570560000000e+09*(var*(var*((var*var*var)*(var*var*var))*((var*var*var)*(var*var*var)))*(var*((var*var*var)*(var*var*var))*((var*var*var)*(var*var*var))))+1.5386804224000000e+10*(var*((var*(var*var)*(var*var))*(var*(var*var)*(var*var)))*((var*(var*var)*(var*var))*(var*(var*var)*(var*var))))+-3.2814080000000000e+06*(var*(var*var*var)*(var*var*var))+8.3414876160000000e+09*(var*(((var*var)*(var*var))*((var*var)*(var*var)))*(((var*var)*(var*var))*((var*var)*(var*var))))+1.6889600000000000e+05*(var*(var*var)*(var*var))+-3.6832542720000000e+09*(var*(var*(var*var*var)*(var*var*var))*(var*(var*var*var)*(var*var*var)))+1.1510169600000000e+09*(var*((var*var*var)*(var*var*var))*((var*var*var)*(var*var*var)))+-4.0600000000000000e+03*(var*var*var)+6.3250104320000000e+09*(var*(((var*var*var)*(var*var*var))*((var*var*var)*(var*var*var)))*(((var*var*var)*(var*var*var))*((var*var*var)*(var*var*var))))+3.6095488000000000e+07*(var*((var*var)*(var*var))*((var*var)*(var*var)))+268435456.0*(var*((var*(var*var*var)*(var*var*var))*(var*(var*var*var)*(var*var*var)))*((var*(var*var*var)*(var*var*var))*(var*(var*var*var)*(var*var*var))))+-2.4938700800000000e+08*(var*(var*(var*var)*(var*var))*(var*(var*var)*(var*var)))+-1.3463453696000000e+10*(var*(var*((var*var)*(var*var))*((var*var)*(var*var)))*(var*((var*var)*(var*var))*((var*var)*(var*var))))", chars!"-(4060.0)*x^3-(3.683254272E9)*x^15+(1.15101696E9)*x^13+268435456*x^29-(2.49387008E8)*x^11+(6.325010432E9)*x^25+(3.6095488E7)*x^9-(1.3463453696E10)*x^19-(1.946157056E9)*x^27-(1.21634816E10)*x^23+(1.5386804224E10)*x^21+(29.0)*x-(3281408.0)*x^7+(8.341487616E9)*x^17+(168896.0)*x^5", chars!"-{(4060.0)} x^{3}-{(3.683254272E9)} x^{15}+{(1.15101696E9)} x^{13}+268435456 x^{29}-{(2.49387008E8)} x^{11}+{(6.325010432E9)} x^{25}+{(3.6095488E7)} x^{9}-{(1.3463453696E10)} x^{19}-{(1.946157056E9)} x^{27}-{(1.21634816E10)} x^{23}+{(1.5386804224E10)} x^{21}+{(29.0)} x-{(3281408.0)} x^{7}+{(8.341487616E9)} x^{17}+{(168896.0)} x^{5}"⟩
/-- Chebyshev.hh:880-900, class `Chebyshev_0_grad`. -/
def Chebyshev_0_grad : ClassText := ⟨"", chars!"0.0", chars!"0.0", chars!"0", chars!"0"⟩
/-- Chebyshev.hh:909-929, class `Chebyshev_1_grad`. -/
def Chebyshev_1_grad : ClassText := ⟨"", chars!"1.0", chars!"1.0", chars!"1", chars!"1"⟩
/-- Chebyshev.hh:938-958, class `Chebyshev_2_grad`. -/
def Chebyshev_2_grad : ClassText := ⟨"", chars!"4.0*var", chars!"4.0*var", chars!"4*x", chars!"4  x"⟩
/-- Chebyshev.hh:967-987, class `Chebyshev_3_grad`. -/
def Chebyshev_3_grad : ClassText := ⟨"", chars!" 12.0*(var*var)-3.0000000000000000e+00", chars!" 12.0*(var*var)-3.0000000000000000e+00", chars!"-3.0+12*x^2", chars!"-3.0+12 x^{2}"⟩
/-- Chebyshev.hh:996-1016, class `Chebyshev_4_grad`. -/
def Chebyshev_4_grad : ClassText := ⟨"", chars!" -1.6000000000000000e+01*var+32.0*(var*var*var)", chars!" -1.6000000000000000e+01*var+32.0*(var*var*var)", chars!"32*x^3-(16.0)*x", chars!"32 x^{3}-{(16.0)} x"⟩
/-- Chebyshev.hh:1025-1045, class `Chebyshev_5_grad`. -/
def Chebyshev_5_grad : ClassText := ⟨"", chars!" 80.0*((var*var)*(var*var))+-6.0000000000000000e+01*(var*var)+5.0000000000000000e+00", chars!" 80.0*((var*var)*(var*var))+-6.0000000000000000e+01*(var*var)+5.0000000000000000e+00", chars!"5.0-(60.0)*x^2+80*x^4", chars!"5.0-{(60.0)} x^{2}+80 x^{4}"⟩
/-- Chebyshev.hh:1054-1074, class `Chebyshev_6_grad`. -/
def Chebyshev_6_grad : ClassText := ⟨"", chars!" 3.6000000000000000e+01*var+192.0*(var*(var*var)*(var*var))+-1.9200000000000000e+02*(var*var*var)", chars!" 3.6000000000000000e+01*var+192.0*(var*(var*var)*(var*var))+-1.9200000000000000e+02*(var*var*var)", chars!"-(192.0)*x^3+(36.0)*x+192*x^5", chars!"-{(192.0)} x^{3}+{(36.0)} x+192 x^{5}"⟩
/-- Chebyshev.hh:1083-1103, class `Chebyshev_7_grad`. -/
def Chebyshev_7_grad : ClassText := ⟨"", chars!" 448.0*((var*var*var)*(var*var*var))+-5.6000000000000000e+02*((var*var)*(var*var))+1.6800000000000000e+02*(var*var)-7.0000000000000000e+00", chars!" 448.0*((var*var*var)*(var*var*var))+-5.6000000000000000e+02*((var*var)*(var*var))+1.6800000000000000e+02*(var*var)-7.0000000000000000e+00", chars!"-7.0+(168.0)*x^2+448*x^6-(560.0)*x^4", chars!"-7.0+{(168.0)} x^{2}+448 x^{6}-{(560.0)} x^{4}"⟩
/-- Chebyshev.hh:1112-1132, class `Chebyshev_8_grad`. -/
def Chebyshev_8_grad : ClassText := ⟨"", chars!" -6.4000000000000000e+01*var+1024.0*(var*(var*var*var)*(var*var*var))+-1.5360000000000000e+03*(var*(var*var)*(var*var))+6.4000000000000000e+02*(var*var*var)", chars!" -6.4000000000000000e+01*var+1024.0*(var*(var*var*var)*(var*var*var))+-1.5360000000000000e+03*(var*(var*var)*(var*var))+6.4000000000000000e+02*(var*var*var)", chars!"(640.0)*x^3-(64.0)*x+1024*x^7-(1536.0)*x^5", chars!"{(640.0)} x^{3}-{(64.0)} x+1024 x^{7}-{(1536.0)} x^{5}"⟩
/-- Chebyshev.hh:1141-1161, class `Chebyshev_9_grad`. -/
def Chebyshev_9_grad : ClassText := ⟨"", chars!" -4.0320000000000000e+03*((var*var*var)*(var*var*var))+2.1600000000000000e+03*((var*var)*(var*var))+-3.6000000000000000e+02*(var*var)+2304.0*(((var*var)*(var*var))*((var*var)*(var*var)))+9.0000000000000000e+00", chars!" -4.0320000000000000e+03*((var*var*var)*(var*var*var))+2.1600000000000000e+03*((var*var)*(var*var))+-3.6000000000000000e+02*(var*var)+2304.0*(((var*var)*(var*var))*((var*var)*(var*var)))+9.0000000000000000e+00", chars!"9.0-(360.0)*x^2+2304*x^8-(4032.0)*x^6+(2160.0)*x^4", chars!"9.0-{(360.0)} x^{2}+2304 x^{8}-{(4032.0)} x^{6}+{(2160.0)} x^{4}"⟩
/-- Chebyshev.hh:1170-1190, class `Chebyshev_10_grad`. -/
def Chebyshev_10_grad : ClassText := ⟨"", chars!" 1.0000000000000000e+02*var+-1.0240000000000000e+04*(var*(var*var*var)*(var*var*var))+6.7200000000000000e+03*(var*(var*var)*(var*var))+-1.6000000000000000e+03*(var*var*var)+5120.0*(var*((var*var)*(var*var))*((var*var)*(var*var)))", chars!" 1.0000000000000000e+02*var+-1.0240000000000000e+04*(var*(var*var*var)*(var*var*var))+6.7200000000000000e+03*(var*(var*var)*(var*var))+-1.6000000000000000e+03*(var*var*var)+5120.0*(var*((var*var)*(var*var))*((var*var)*(var*var)))", chars!"-(1600.0)*x^3+5120*x^9+(100.0)*x-(10240.0)*x^7+(6720.0)*x^5", chars!"-{(1600.0)} x^{3}+5120 x^{9}+{(100.0)} x-{(10240.0)} x^{7}+{(6720.0)} x^{5}"⟩
/-- Chebyshev.hh:1199-1219, class `Chebyshev_11_grad`. -/
def Chebyshev_11_grad : ClassText := ⟨"", chars!" 11264.0*((var*(var*var)*(var*var))*(var*(var*var)*(var*var)))+1.9712000000000000e+04*((var*var*var)*(var*var*var))+-6.1600000000000000e+03*((var*var)*(var*var))+6.6000000000000000e+02*(var*var)+-2.5344000000000000e+04*(((var*var)*(var*var))*((var*var)*(var*var)))-1.1000000000000000e+01", chars!" 11264.0*((var*(var*var)*(var*var))*(var*(var*var)*(var*var)))+1.9712000000000000e+04*((var*var*var)*(var*var*var))+-6.1600000000000000e+03*((var*var)*(var*var))+6.6000000000000000e+02*(var*var)+-2.5344000000000000e+04*(((var*var)*(var*var))*((var*var)*(var*var)))-1.1000000000000000e+01", chars!"-11.0+(660.0)*x^2-(25344.0)*x^8+11264*x^10+(19712.0)*x^6-(6160.0)*x^4", chars!"-11.0+{(660.0)} x^{2}-{(25344.0)} x^{8}+11264 x^{10}+{(19712.0)} x^{6}-{(6160.0)} x^{4}"⟩
/-- Chebyshev.hh:1228-1248, class `Chebyshev_12_grad`. -/
def Chebyshev_12_grad : ClassText := ⟨"", chars!" -1.4400000000000000e+02*var+5.5296000000000000e+04*(var*(var*var*var)*(var*var*var))+-2.1504000000000000e+04*(var*(var*var)*(var*var))+3.3600000000000000e+03*(var*var*var)+-6.1440000000000000e+04*(var*((var*var)*(var*var))*((var*var)*(var*var)))+24576.0*(var*(var*(var*var)*(var*var))*(var*(var*var)*(var*var)))", chars!" -1.4400000000000000e+02*var+5.5296000000000000e+04*(var*(var*var*var)*(var*var*var))+-2.1504000000000000e+04*(var*(var*var)*(var*var))+3.3600000000000000e+03*(var*var*var)+-6.1440000000000000e+04*(var*((var*var)*(var*var))*((var*var)*(var*var)))+24576.0*(var*(var*(var*var)*(var*var))*(var*(var*var)*(var*var)))", chars!"(3360.0)*x^3+24576*x^11-(61440.0)*x^9-(144.0)*x+(55296.0)*x^7-(21504.0)*x^5", chars!"{(3360.0)} x^{3}+24576 x^{11}-{(61440.0)} x^{9}-{(144.0)} x+{(55296.0)} x^{7}-{(21504.0)} x^{5}"⟩
/-- Chebyshev.hh:1257-1277, class `Chebyshev_13_grad`. -/
def Chebyshev_13_grad : ClassText := ⟨"", chars!" -1.4643200000000000e+05*((var*(var*var)*(var*var))*(var*(var*var)*(var*var)))+53248.0*(((var*var*var)*(var*var*var))*((var*var*var)*(var*var*var)))+-6.9888000000000000e+04*((var*var*var)*(var*var*var))+1.4560000000000000e+04*((var*var)*(var*var))+-1.0920000000000000e+03*(var*var)+1.4976000000000000e+05*(((var*var)*(var*var))*((var*var)*(var*var)))+1.3000000000000000e+01", chars!" -1.4643200000000000e+05*((var*(var*var)*(var*var))*(var*(var*var)*(var*var)))+53248.0*(((var*var*var)*(var*var*var))*((var*var*var)*(var*var*var)))+-6.9888000000000000e+04*((var*var*var)*(var*var*var))+1.4560000000000000e+04*((var*var)*(var*var))+-1.0920000000000000e+03*(var*var)+1.4976000000000000e+05*(((var*var)*(var*var))*((var*var)*(var*var)))+1.3000000000000000e+01", chars!"13.0-(1092.0)*x^2+(149760.0)*x^8+53248*x^12-(146432.0)*x^10-(69888.0)*x^6+(14560.0)*x^4", chars!"13.0-{(1092.0)} x^{2}+{(149760.0)} x^{8}+53248 x^{12}-{(146432.0)} x^{10}-{(69888.0)} x^{6}+{(14560.0)} x^{4}"⟩
/-- Chebyshev.hh:1286-1306, class `Chebyshev_14_grad`. -/
def Chebyshev_14_grad : ClassText := ⟨"", chars!" 1.9600000000000000e+02*var+-2.1504000000000000e+05*(var*(var*var*var)*(var*var*var))+5.6448000000000000e+04*(var*(var*var)*(var*var))+114688.0*(var*((var*var*var)*(var*var*var))*((var*var*var)*(var*var*var)))+-6.2720000000000000e+03*(var*var*var)+3.9424000000000000e+05*(var*((var*var)*(var*var))*((var*var)*(var*var)))+-3.4406400000000000e+05*(var*(var*(var*var)*(var*var))*(var*(var*var)*(var*var)))", chars!" 1.9600000000000000e+02*var+-2.1504000000000000e+05*(var*(var*var*var)*(var*var*var))+5.6448000000000000e+04*(var*(var*var)*(var*var))+114688.0*(var*((var*var*var)*(var*var*var))*((var*var*var)*(var*var*var)))+-6.2720000000000000e+03*(var*var*var)+3.9424000000000000e+05*(var*((var*var)*(var*var))*((var*var)*(var*var)))+-3.4406400000000000e+05*(var*(var*(var*var)*(var*var))*(var*(var*var)*(var*var)))", chars!"-(6272.0)*x^3+114688*x^13-(344064.0)*x^11+(394240.0)*x^9+(196.0)*x-(215040.0)*x^7+(56448.0)*x^5", chars!"-{(6272.0)} x^{3}+114688 x^{13}-{(344064.0)} x^{11}+{(394240.0)} x^{9}+{(196.0)} x-{(215040.0)} x^{7}+{(56448.0)} x^{5}"⟩
/-- Chebyshev.hh:1315-1335, class `Chebyshev_15_grad`. -/
def Chebyshev_15_grad : ClassText := ⟨"", chars!" 245760.0*((var*(var*var*var)*(var*var*var))*(var*(var*var*var)*(var*var*var)))+1.0137600000000000e+06*((var*(var*var)*(var*var))*(var*(var*var)*(var*var)))+-7.9872000000000000e+05*(((var*var*var)*(var*var*var))*((var*var*var)*(var*var*var)))+2.0160000000000000e+05*((var*var*var)*(var*var*var))+-3.0240000000000000e+04*((var*var)*(var*var))+1.6800000000000000e+03*(var*var)+-6.3360000000000000e+05*(((var*var)*(var*var))*((var*var)*(var*var)))-1.5000000000000000e+01", chars!" 245760.0*((var*(var*var*var)*(var*var*var))*(var*(var*var*var)*(var*var*var)))+1.0137600000000000e+06*((var*(var*var)*(var*var))*(var*(var*var)*(var*var)))+-7.9872000000000000e+05*(((var*var*var)*(var*var*var))*((var*var*var)*(var*var*var)))+2.0160000000000000e+05*((var*var*var)*(var*var*var))+-3.0240000000000000e+04*((var*var)*(var*var))+1.6800000000000000e+03*(var*var)+-6.3360000000000000e+05*(((var*var)*(var*var))*((var*var)*(var*var)))-1.5000000000000000e+01", chars!"-15.0+(1680.0)*x^2-(633600.0)*x^8+245760*x^14-(798720.0)*x^12+(1013760.0)*x^10+(201600.0)*x^6-(30240.0)*x^4", chars!"-15.0+{(1680.0)} x^{2}-{(633600.0)} x^{8}+245760 x^{14}-{(798720.0)} x^{12}+{(1013760.0)} x^{10}+{(201600.0)} x^{6}-{(30240.0)} x^{4}"⟩
/-- Chebyshev.hh:1344-1364, class `Chebyshev_16_grad`. -/
def Chebyshev_16_grad : ClassText := ⟨"", chars!" -2.5600000000000000e+02*var+6.7584000000000000e+05*(var*(var*var*var)*(var*var*var))+-1.2902400000000000e+05*(var*(var*var)*(var*var))+524288.0*(var*(var*(var*var*var)*(var*var*var))*(var*(var*var*var)*(var*var*var)))+-1.8350080000000000e+06*(var*((var*var*var)*(var*var*var))*((var*var*var)*(var*var*var)))+1.0752000000000000e+04*(var*var*var)+-1.8022400000000000e+06*(var*((var*var)*(var*var))*((var*var)*(var*var)))+2.5559040000000000e+06*(var*(var*(var*var)*(var*var))*(var*(var*var)*(var*var)))", chars!" -2.5600000000000000e+02*var+6.7584000000000000e+05*(var*(var*var*var)*(var*var*var))+-1.2902400000000000e+05*(var*(var*var)*(var*var))+524288.0*(var*(var*(var*var*var)*(var*var*var))*(var*(var*var*var)*(var*var*var)))+-1.8350080000000000e+06*(var*((var*var*var)*(var*var*var))*((var*var*var)*(var*var*var)))+1.0752000000000000e+04*(var*var*var)+-1.8022400000000000e+06*(var*((var*var)*(var*var))*((var*var)*(var*var)))+2.5559040000000000e+06*(var*(var*(var*var)*(var*var))*(var*(var*var)*(var*var)))", chars!"(10752.0)*x^3+524288*x^15-(1835008.0)*x^13+(2555904.0)*x^11-(1802240.0)*x^9-(256.0)*x+(675840.0)*x^7-(129024.0)*x^5", chars!"{(10752.0)} x^{3}+524288 x^{15}-{(1835008.0)} x^{13}+{(2555904.0)} x^{11}-{(1802240.0)} x^{9}-{(256.0)} x+{(675840.0)} x^{7}-{(129024.0)} x^{5}"⟩
/-- Chebyshev.hh:1373-1393, class `Chebyshev_17_grad`. -/
def Chebyshev_17_grad : ClassText := ⟨"", chars!" -4.1779200000000000e+06*((var*(var*var*var)*(var*var*var))*(var*(var*var*var)*(var*var*var)))+-4.9786880000000000e+06*((var*(var*var)*(var*var))*(var*(var*var)*(var*var)))+6.3365120000000000e+06*(((var*var*var)*(var*var*var))*((var*var*var)*(var*var*var)))+-5.0265600000000000e+05*((var*var*var)*(var*var*var))+5.7120000000000000e+04*((var*var)*(var*var))+1114112.0*((((var*var)*(var*var))*((var*var)*(var*var)))*(((var*var)*(var*var))*((var*var)*(var*var))))+-2.4480000000000000e+03*(var*var)+2.1542400000000000e+06*(((var*var)*(var*var))*((var*var)*(var*var)))+1.7000000000000000e+01", chars!" -4.1779200000000000e+06*((var*(var*var*var)*(var*var*var))*(var*(var*var*var)*(var*var*var)))+-4.9786880000000000e+06*((var*(var*var)*(var*var))*(var*(var*var)*(var*var)))+6.3365120000000000e+06*(((var*var*var)*(var*var*var))*((var*var*var)*(var*var*var)))+-5.0265600000000000e+05*((var*var*var)*(var*var*var))+5.7120000000000000e+04*((var*var)*(var*var))+1114112.0*((((var*var)*(var*var))*((var*var)*(var*var)))*(((var*var)*(var*var))*((var*var)*(var*var))))+-2.4480000000000000e+03*(var*var)+2.1542400000000000e+06*(((var*var)*(var*var))*((var*var)*(var*var)))+1.7000000000000000e+01", chars!"17.0+1114112*x^16-(2448.0)*x^2+(2154240.0)*x^8-(4177920.0)*x^14+(6336512.0)*x^12-(4978688.0)*x^10-(502656.0)*x^6+(57120.0)*x^4", chars!"17.0+1114112 x^{16}-{(2448.0)} x^{2}+{(2154240.0)} x^{8}-{(4177920.0)} x^{14}+{(6336512.0)} x^{12}-{(4978688.0)} x^{10}-{(502656.0)} x^{6}+{(57120.0)} x^{4}"⟩
/-- Chebyshev.hh:1402-1422, class `Chebyshev_18_grad`. -/
def Chebyshev_18_grad : ClassText := ⟨"", chars!" 3.2400000000000000e+02*var+-1.8247680000000000e+06*(var*(var*var*var)*(var*var*var))+2359296.0*(var*(((var*var)*(var*var))*((var*var)*(var*var)))*(((var*var)*(var*var))*((var*var)*(var*var))))+2.6611200000000000e+05*(var*(var*var)*(var*var))+-9.4371840000000000e+06*(var*(var*(var*var*var)*(var*var*var))*(var*(var*var*var)*(var*var*var)))+1.5482880000000000e+07*(var*((var*var*var)*(var*var*var))*((var*var*var)*(var*var*var)))+-1.7280000000000000e+04*(var*var*var)+6.5894400000000000e+06*(var*((var*var)*(var*var))*((var*var)*(var*var)))+-1.3418496000000000e+07*(var*(var*(var*var)*(var*var))*(var*(var*var)*(var*var)))", chars!" 3.2400000000000000e+02*var+-1.8247680000000000e+06*(var*(var*var*var)*(var*var*var))+2359296.0*(var*(((var*var)*(var*var))*((var*var)*(var*var)))*(((var*var)*(var*var))*((var*var)*(var*var))))+2.6611200000000000e+05*(var*(var*var)*(var*var))+-9.4371840000000000e+06*(var*(var*(var*var*var)*(var*var*var))*(var*(var*var*var)*(var*var*var)))+1.5482880000000000e+07*(var*((var*var*var)*(var*var*var))*((var*var*var)*(var*var*var)))+-1.7280000000000000e+04*(var*var*var)+6.5894400000000000e+06*(var*((var*var)*(var*var))*((var*var)*(var*var)))+-1.3418496000000000e+07*(var*(var*(var*var)*(var*var))*(var*(var*var)*(var*var)))", chars!"-(17280.0)*x^3-(9437184.0)*x^15+(1.548288E7)*x^13-(1.3418496E7)*x^11+(6589440.0)*x^9+(324.0)*x-(1824768.0)*x^7+2359296*x^17+(266112.0)*x^5", chars!"-{(17280.0)} x^{3}-{(9437184.0)} x^{15}+{(1.548288E7)} x^{13}-{(1.3418496E7)} x^{11}+{(6589440.0)} x^{9}+{(324.0)} x-{(1824768.0)} x^{7}+2359296 x^{17}+{(266112.0)} x^{5}"⟩
/-- Chebyshev.hh:1431-1451, class `Chebyshev_19_grad`. -/
def Chebyshev_19_grad : ClassText := ⟨"", chars!" 3.7355520000000000e+07*((var*(var*var*var)*(var*var*var))*(var*(var*var*var)*(var*var*var)))+4980736.0*((var*((var*var)*(var*var))*((var*var)*(var*var)))*(var*((var*var)*(var*var))*((var*var)*(var*var))))+1.9475456000000000e+07*((var*(var*var)*(var*var))*(var*(var*var)*(var*var)))+-3.5409920000000000e+07*(((var*var*var)*(var*var*var))*((var*var*var)*(var*var*var)))+1.1235840000000000e+06*((var*var*var)*(var*var*var))+-1.0032000000000000e+05*((var*var)*(var*var))+-2.1168128000000000e+07*((((var*var)*(var*var))*((var*var)*(var*var)))*(((var*var)*(var*var))*((var*var)*(var*var))))+3.4200000000000000e+03*(var*var)+-6.2599680000000000e+06*(((var*var)*(var*var))*((var*var)*(var*var)))-1.9000000000000000e+01", chars!" 3.7355520000000000e+07*((var*(var*var*var)*(var*var*var))*(var*(var*var*var)*(var*var*var)))+4980736.0*((var*((var*var)*(var*var))*((var*var)*(var*var)))*(var*((var*var)*(var*var))*((var*var)*(var*var))))+1.9475456000000000e+07*((var*(var*var)*(var*var))*(var*(var*var)*(var*var)))+-3.5409920000000000e+07*(((var*var*var)*(var*var*var))*((var*var*var)*(var*var*var)))+1.1235840000000000e+06*((var*var*var)*(var*var*var))+-1.0032000000000000e+05*((var*var)*(var*var))+-2.1168128000000000e+07*((((var*var)*(var*var))*((var*var)*(var*var)))*(((var*var)*(var*var))*((var*var)*(var*var))))+3.4200000000000000e+03*(var*var)+-6.2599680000000000e+06*(((var*var)*(var*var))*((var*var)*(var*var)))-1.9000000000000000e+01", chars!"-19.0-(2.1168128E7)*x^16+(3420.0)*x^2-(6259968.0)*x^8+4980736*x^18+(3.735552E7)*x^14-(3.540992E7)*x^12+(1.9475456E7)*x^10+(1123584.0)*x^6-(100320.0)*x^4", chars!"-19.0-{(2.1168128E7)} x^{16}+{(3420.0)} x^{2}-{(6259968.0)} x^{8}+4980736 x^{18}+{(3.735552E7)} x^{14}-{(3.540992E7)} x^{12}+{(1.9475456E7)} x^{10}+{(1123584.0)} x^{6}-{(100320.0)} x^{4}"⟩
/-- Chebyshev.hh:1460-1480, class `Chebyshev_20_grad`. -/
def Chebyshev_20_grad : ClassText := ⟨"", chars!" -4.0000000000000000e+02*var+4.3929600000000000e+06*(var*(var*var*var)*(var*var*var))+-4.7185920000000000e+07*(var*(((var*var)*(var*var))*((var*var)*(var*var)))*(((var*var)*(var*var))*((var*var)*(var*var))))+-5.0688000000000000e+05*(var*(var*var)*(var*var))+8.9128960000000000e+07*(var*(var*(var*var*var)*(var*var*var))*(var*(var*var*var)*(var*var*var)))+-9.1750400000000000e+07*(var*((var*var*var)*(var*var*var))*((var*var*var)*(var*var*var)))+2.6400000000000000e+04*(var*var*var)+-2.0500480000000000e+07*(var*((var*var)*(var*var))*((var*var)*(var*var)))+5.5910400000000000e+07*(var*(var*(var*var)*(var*var))*(var*(var*var)*(var*var)))+10485760.0*(var*(var*((var*var)*(var*var))*((var*var)*(var*var)))*(var*((var*var)*(var*var))*((var*var)*(var*var))))", chars!" -4.0000000000000000e+02*var+4.3929600000000000e+06*(var*(var*var*var)*(var*var*var))+-4.7185920000000000e+07*(var*(((var*var)*(var*var))*((var*var)*(var*var)))*(((var*var)*(var*var))*((var*var)*(var*var))))+-5.0688000000000000e+05*(var*(var*var)*(var*var))+8.9128960000000000e+07*(var*(var*(var*var*var)*(var*var*var))*(var*(var*var*var)*(var*var*var)))+-9.1750400000000000e+07*(var*((var*var*var)*(var*var*var))*((var*var*var)*(var*var*var)))+2.6400000000000000e+04*(var*var*var)+-2.0500480000000000e+07*(var*((var*var)*(var*var))*((var*var)*(var*var)))+5.5910400000000000e+07*(var*(var*(var*var)*(var*var))*(var*(var*var)*(var*var)))+10485760.0*(var*(var*((var*var)*(var*var))*((var*var)*(var*var)))*(var*((var*var)*(var*var))*((var*var)*(var*var))))", chars!"(26400.0)*x^3+(8.912896E7)*x^15-(9.17504E7)*x^13+(5.59104E7)*x^11-(2.050048E7)*x^9+10485760*x^19-(400.0)*x+(4392960.0)*x^7-(4.718592E7)*x^17-(506880.0)*x^5", chars!"{(26400.0)} x^{3}+{(8.912896E7)} x^{15}-{(9.17504E7)} x^{13}+{(5.59104E7)} x^{11}-{(2.050048E7)} x^{9}+10485760 x^{19}-{(400.0)} x+{(4392960.0)} x^{7}-{(4.718592E7)} x^{17}-{(506880.0)} x^{5}"⟩
/-- Chebyshev.hh:1489-1509, class `Chebyshev_21_grad`. -/
def Chebyshev_21_grad : ClassText := ⟨"", chars!" -2.3396352000000000e+08*((var*(var*var*var)*(var*var*var))*(var*(var*var*var)*(var*var*var)))+-1.0459545600000000e+08*((var*((var*var)*(var*var))*((var*var)*(var*var)))*(var*((var*var)*(var*var))*((var*var)*(var*var))))+-6.4576512000000000e+07*((var*(var*var)*(var*var))*(var*(var*var)*(var*var)))+1.5654912000000000e+08*(((var*var*var)*(var*var*var))*((var*var*var)*(var*var*var)))+-2.3063040000000000e+06*((var*var*var)*(var*var*var))+1.6632000000000000e+05*((var*var)*(var*var))+2.1056716800000000e+08*((((var*var)*(var*var))*((var*var)*(var*var)))*(((var*var)*(var*var))*((var*var)*(var*var))))+22020096.0*(((var*(var*var)*(var*var))*(var*(var*var)*(var*var)))*((var*(var*var)*(var*var))*(var*(var*var)*(var*var))))+-4.6200000000000000e+03*(var*var)+1.6144128000000000e+07*(((var*var)*(var*var))*((var*var)*(var*var)))+2.1000000000000000e+01", chars!" -2.3396352000000000e+08*((var*(var*var*var)*(var*var*var))*(var*(var*var*var)*(var*var*var)))+-1.0459545600000000e+08*((var*((var*var)*(var*var))*((var*var)*(var*var)))*(var*((var*var)*(var*var))*((var*var)*(var*var))))+-6.4576512000000000e+07*((var*(var*var)*(var*var))*(var*(var*var)*(var*var)))+1.5654912000000000e+08*(((var*var*var)*(var*var*var))*((var*var*var)*(var*var*var)))+-2.3063040000000000e+06*((var*var*var)*(var*var*var))+1.6632000000000000e+05*((var*var)*(var*var))+2.1056716800000000e+08*((((var*var)*(var*var))*((var*var)*(var*var)))*(((var*var)*(var*var))*((var*var)*(var*var))))+22020096.0*(((var*(var*var)*(var*var))*(var*(var*var)*(var*var)))*((var*(var*var)*(var*var))*(var*(var*var)*(var*var))))+-4.6200000000000000e+03*(var*var)+1.6144128000000000e+07*(((var*var)*(var*var))*((var*var)*(var*var)))+2.1000000000000000e+01", chars!"21.0+22020096*x^20+(2.10567168E8)*x^16-(4620.0)*x^2+(1.6144128E7)*x^8-(1.04595456E8)*x^18-(2.3396352E8)*x^14+(1.5654912E8)*x^12-(6.4576512E7)*x^10-(2306304.0)*x^6+(166320.0)*x^4", chars!"21.0+22020096 x^{20}+{(2.10567168E8)} x^{16}-{(4620.0)} x^{2}+{(1.6144128E7)} x^{8}-{(1.04595456E8)} x^{18}-{(2.3396352E8)} x^{14}+{(1.5654912E8)} x^{12}-{(6.4576512E7)} x^{10}-{(2306304.0)} x^{6}+{(166320.0)} x^{4}"⟩
/-- Chebyshev.hh:1518-1538, class `Chebyshev_22_grad`. -/
def Chebyshev_22_grad : ClassText := ⟨"", chars!" 4.8400000000000000e+02*var+46137344.0*(var*((var*(var*var)*(var*var))*(var*(var*var)*(var*var)))*((var*(var*var)*(var*var))*(var*(var*var)*(var*var))))+-9.6645120000000000e+06*(var*(var*var*var)*(var*var*var))+4.9309286400000000e+08*(var*(((var*var)*(var*var))*((var*var)*(var*var)))*(((var*var)*(var*var))*((var*var)*(var*var))))+9.0604800000000000e+05*(var*(var*var)*(var*var))+-5.8825113600000000e+08*(var*(var*(var*var*var)*(var*var*var))*(var*(var*var*var)*(var*var*var)))+4.2893312000000000e+08*(var*((var*var*var)*(var*var*var))*((var*var*var)*(var*var*var)))+-3.8720000000000000e+04*(var*var*var)+5.6376320000000000e+07*(var*((var*var)*(var*var))*((var*var)*(var*var)))+-1.9680460800000000e+08*(var*(var*(var*var)*(var*var))*(var*(var*var)*(var*var)))+-2.3068672000000000e+08*(var*(var*((var*var)*(var*var))*((var*var)*(var*var)))*(var*((var*var)*(var*var))*((var*var)*(var*var))))", chars!" 4.8400000000000000e+02*var+46137344.0*(var*((var*(var*var)*(var*var))*(var*(var*var)*(var*var)))*((var*(var*var)*(var*var))*(var*(var*var)*(var*var))))+-9.6645120000000000e+06*(var*(var*var*var)*(var*var*var))+4.9309286400000000e+08*(var*(((var*var)*(var*var))*((var*var)*(var*var)))*(((var*var)*(var*var))*((var*var)*(var*var))))+9.0604800000000000e+05*(var*(var*var)*(var*var))+-5.8825113600000000e+08*(var*(var*(var*var*var)*(var*var*var))*(var*(var*var*var)*(var*var*var)))+4.2893312000000000e+08*(var*((var*var*var)*(var*var*var))*((var*var*var)*(var*var*var)))+-3.8720000000000000e+04*(var*var*var)+5.6376320000000000e+07*(var*((var*var)*(var*var))*((var*var)*(var*var)))+-1.9680460800000000e+08*(var*(var*(var*var)*(var*var))*(var*(var*var)*(var*var)))+-2.3068672000000000e+08*(var*(var*((var*var)*(var*var))*((var*var)*(var*var)))*(var*((var*var)*(var*var))*((var*var)*(var*var))))", chars!"-(38720.0)*x^3-(5.88251136E8)*x^15+(4.2893312E8)*x^13-(1.96804608E8)*x^11+(5.637632E7)*x^9-(2.3068672E8)*x^19+46137344*x^21+(484.0)*x-(9664512.0)*x^7+(4.93092864E8)*x^17+(906048.0)*x^5", chars!"-{(38720.0)} x^{3}-{(5.88251136E8)} x^{15}+{(4.2893312E8)} x^{13}-{(1.96804608E8)} x^{11}+{(5.637632E7)} x^{9}-{(2.3068672E8)} x^{19}+46137344 x^{21}+{(484.0)} x-{(9664512.0)} x^{7}+{(4.93092864E8)} x^{17}+{(906048.0)} x^{5}"⟩
/-- Chebyshev.hh:1547-1567, class `Chebyshev_23_grad`. -/
def Chebyshev_23_grad : ClassText := ⟨"", chars!" 1.1531059200000000e+09*((var*(var*var*var)*(var*var*var))*(var*(var*var*var)*(var*var*var)))+1.1455692800000000e+09*((var*((var*var)*(var*var))*((var*var)*(var*var)))*(var*((var*var)*(var*var))*((var*var)*(var*var))))+1.8860441600000000e+08*((var*(var*var)*(var*var))*(var*(var*var)*(var*var)))+-5.8295910400000000e+08*(((var*var*var)*(var*var*var))*((var*var*var)*(var*var*var)))+4.4204160000000000e+06*((var*var*var)*(var*var*var))+-2.6312000000000000e+05*((var*var)*(var*var))+96468992.0*((var*(var*(var*var)*(var*var))*(var*(var*var)*(var*var)))*(var*(var*(var*var)*(var*var))*(var*(var*var)*(var*var))))+-1.4606008320000000e+09*((((var*var)*(var*var))*((var*var)*(var*var)))*(((var*var)*(var*var))*((var*var)*(var*var))))+-5.0646220800000000e+08*(((var*(var*var)*(var*var))*(var*(var*var)*(var*var)))*((var*(var*var)*(var*var))*(var*(var*var)*(var*var))))+6.0720000000000000e+03*(var*var)+-3.7889280000000000e+07*(((var*var)*(var*var))*((var*var)*(var*var)))-2.3000000000000000e+01", chars!" 1.1531059200000000e+09*((var*(var*var*var)*(var*var*var))*(var*(var*var*var)*(var*var*var)))+1.1455692800000000e+09*((var*((var*var)*(var*var))*((var*var)*(var*var)))*(var*((var*var)*(var*var))*((var*var)*(var*var))))+1.8860441600000000e+08*((var*(var*var)*(var*var))*(var*(var*var)*(var*var)))+-5.8295910400000000e+08*(((var*var*var)*(var*var*var))*((var*var*var)*(var*var*var)))+4.4204160000000000e+06*((var*var*var)*(var*var*var))+-2.6312000000000000e+05*((var*var)*(var*var))+96468992.0*((var*(var*(var*var)*(var*var))*(var*(var*var)*(var*var)))*(var*(var*(var*var)*(var*var))*(var*(var*var)*(var*var))))+-1.4606008320000000e+09*((((var*var)*(var*var))*((var*var)*(var*var)))*(((var*var)*(var*var))*((var*var)*(var*var))))+-5.0646220800000000e+08*(((var*(var*var)*(var*var))*(var*(var*var)*(var*var)))*((var*(var*var)*(var*var))*(var*(var*var)*(var*var))))+6.0720000000000000e+03*(var*var)+-3.7889280000000000e+07*(((var*var)*(var*var))*((var*var)*(var*var)))-2.3000000000000000e+01", chars!"-23.0-(5.06462208E8)*x^20-(1.460600832E9)*x^16+(6072.0)*x^2-(3.788928E7)*x^8+(1.14556928E9)*x^18+(1.15310592E9)*x^14-(5.82959104E8)*x^12+(1.88604416E8)*x^10+(4420416.0)*x^6-(263120.0)*x^4+96468992*x^22", chars!"-23.0-{(5.06462208E8)} x^{20}-{(1.460600832E9)} x^{16}+{(6072.0)} x^{2}-{(3.788928E7)} x^{8}+{(1.14556928E9)} x^{18}+{(1.15310592E9)} x^{14}-{(5.82959104E8)} x^{12}+{(1.88604416E8)} x^{10}+{(4420416.0)} x^{6}-{(263120.0)} x^{4}+96468992 x^{22}"⟩
/-- Chebyshev.hh:1576-1596, class `Chebyshev_24_grad`. -/
def Chebyshev_24_grad : ClassText := ⟨"", chars!" -5.7600000000000000e+02*var+201326592.0*(var*(var*(var*(var*var)*(var*var))*(var*(var*var)*(var*var)))*(var*(var*(var*var)*(var*var))*(var*(var*var)*(var*var))))+-1.1072962560000000e+09*(var*((var*(var*var)*(var*var))*(var*(var*var)*(var*var)))*((var*(var*var)*(var*var))*(var*(var*var)*(var*var))))+1.9768320000000000e+07*(var*(var*var*var)*(var*var*var))+-3.5861299200000000e+09*(var*(((var*var)*(var*var))*((var*var)*(var*var)))*(((var*var)*(var*var))*((var*var)*(var*var))))+-1.5375360000000000e+06*(var*(var*var)*(var*var))+3.0482104320000000e+09*(var*(var*(var*var*var)*(var*var*var))*(var*(var*var*var)*(var*var*var)))+-1.6845373440000000e+09*(var*((var*var*var)*(var*var*var))*((var*var*var)*(var*var*var)))+5.4912000000000000e+04*(var*var*var)+-1.4057472000000000e+08*(var*((var*var)*(var*var))*((var*var)*(var*var)))+6.0830515200000000e+08*(var*(var*(var*var)*(var*var))*(var*(var*var)*(var*var)))+2.6424115200000000e+09*(var*(var*((var*var)*(var*var))*((var*var)*(var*var)))*(var*((var*var)*(var*var))*((var*var)*(var*var))))", chars!" -5.7600000000000000e+02*var+201326592.0*(var*(var*(var*(var*var)*(var*var))*(var*(var*var)*(var*var)))*(var*(var*(var*var)*(var*var))*(var*(var*var)*(var*var))))+-1.1072962560000000e+09*(var*((var*(var*var)*(var*var))*(var*(var*var)*(var*var)))*((var*(var*var)*(var*var))*(var*(var*var)*(var*var))))+1.9768320000000000e+07*(var*(var*var*var)*(var*var*var))+-3.5861299200000000e+09*(var*(((var*var)*(var*var))*((var*var)*(var*var)))*(((var*var)*(var*var))*((var*var)*(var*var))))+-1.5375360000000000e+06*(var*(var*var)*(var*var))+3.0482104320000000e+09*(var*(var*(var*var*var)*(var*var*var))*(var*(var*var*var)*(var*var*var)))+-1.6845373440000000e+09*(var*((var*var*var)*(var*var*var))*((var*var*var)*(var*var*var)))+5.4912000000000000e+04*(var*var*var)+-1.4057472000000000e+08*(var*((var*var)*(var*var))*((var*var)*(var*var)))+6.0830515200000000e+08*(var*(var*(var*var)*(var*var))*(var*(var*var)*(var*var)))+2.6424115200000000e+09*(var*(var*((var*var)*(var*var))*((var*var)*(var*var)))*(var*((var*var)*(var*var))*((var*var)*(var*var))))", chars!"(54912.0)*x^3+(3.048210432E9)*x^15-(1.684537344E9)*x^13+(6.08305152E8)*x^11-(1.4057472E8)*x^9+(2.64241152E9)*x^19+201326592*x^23-(1.107296256E9)*x^21-(576.0)*x+(1.976832E7)*x^7-(3.58612992E9)*x^17-(1537536.0)*x^5", chars!"{(54912.0)} x^{3}+{(3.048210432E9)} x^{15}-{(1.684537344E9)} x^{13}+{(6.08305152E8)} x^{11}-{(1.4057472E8)} x^{9}+{(2.64241152E9)} x^{19}+201326592 x^{23}-{(1.107296256E9)} x^{21}-{(576.0)} x+{(1.976832E7)} x^{7}-{(3.58612992E9)} x^{17}-{(1537536.0)} x^{5}"⟩
/-- Chebyshev.hh:1605-1625, class `Chebyshev_25_grad`. -/
def Chebyshev_25_grad : ClassText := ⟨"", chars!" -4.7628288000000000e+09*((var*(var*var*var)*(var*var*var))*(var*(var*var*var)*(var*var*var)))+-8.7162880000000000e+09*((var*((var*var)*(var*var))*((var*var)*(var*var)))*(var*((var*var)*(var*var))*((var*var)*(var*var))))+-4.9786880000000000e+08*((var*(var*var)*(var*var))*(var*(var*var)*(var*var)))+1.9009536000000000e+09*(((var*var*var)*(var*var*var))*((var*var*var)*(var*var*var)))+-8.0080000000000000e+06*((var*var*var)*(var*var*var))+4.0040000000000000e+05*((var*var)*(var*var))+-2.4117248000000000e+09*((var*(var*(var*var)*(var*var))*(var*(var*var)*(var*var)))*(var*(var*(var*var)*(var*var))*(var*(var*var)*(var*var))))+7.9380480000000000e+09*((((var*var)*(var*var))*((var*var)*(var*var)))*(((var*var)*(var*var))*((var*var)*(var*var))))+6.0555264000000000e+09*(((var*(var*var)*(var*var))*(var*(var*var)*(var*var)))*((var*(var*var)*(var*var))*(var*(var*var)*(var*var))))+-7.8000000000000000e+03*(var*var)+8.2368000000000000e+07*(((var*var)*(var*var))*((var*var)*(var*var)))+419430400.0*((((var*var*var)*(var*var*var))*((var*var*var)*(var*var*var)))*(((var*var*var)*(var*var*var))*((var*var*var)*(var*var*var))))+2.5000000000000000e+01", chars!" -4.7628288000000000e+09*((var*(var*var*var)*(var*var*var))*(var*(var*var*var)*(var*var*var)))+-8.7162880000000000e+09*((var*((var*var)*(var*var))*((var*var)*(var*var)))*(var*((var*var)*(var*var))*((var*var)*(var*var))))+-4.9786880000000000e+08*((var*(var*var)*(var*var))*(var*(var*var)*(var*var)))+1.9009536000000000e+09*(((var*var*var)*(var*var*var))*((var*var*var)*(var*var*var)))+-8.0080000000000000e+06*((var*var*var)*(var*var*var))+4.0040000000000000e+05*((var*var)*(var*var))+-2.4117248000000000e+09*((var*(var*(var*var)*(var*var))*(var*(var*var)*(var*var)))*(var*(var*(var*var)*(var*var))*(var*(var*var)*(var*var))))+7.9380480000000000e+09*((((var*var)*(var*var))*((var*var)*(var*var)))*(((var*var)*(var*var))*((var*var)*(var*var))))+6.0555264000000000e+09*(((var*(var*var)*(var*var))*(var*(var*var)*(var*var)))*((var*(var*var)*(var*var))*(var*(var*var)*(var*var))))+-7.8000000000000000e+03*(var*var)+8.2368000000000000e+07*(((var*var)*(var*var))*((var*var)*(var*var)))+419430400.0*((((var*var*var)*(var*var*var))*((var*var*var)*(var*var*var)))*(((var*var*var)*(var*var*var))*((var*var*var)*(var*var*var))))+2.5000000000000000e+01", chars!"25.0+(6.0555264E9)*x^20+(7.938048E9)*x^16-(7800.0)*x^2+(8.2368E7)*x^8+419430400*x^24-(8.716288E9)*x^18-(4.7628288E9)*x^14+(1.9009536E9)*x^12-(4.978688E8)*x^10-(8008000.0)*x^6+(400400.0)*x^4-(2.4117248E9)*x^22", chars!"25.0+{(6.0555264E9)} x^{20}+{(7.938048E9)} x^{16}-{(7800.0)} x^{2}+{(8.2368E7)} x^{8}+419430400 x^{24}-{(8.716288E9)} x^{18}-{(4.7628288E9)} x^{14}+{(1.9009536E9)} x^{12}-{(4.978688E8)} x^{10}-{(8008000.0)} x^{6}+{(400400.0)} x^{4}-{(2.4117248E9)} x^{22}"⟩
/-- Chebyshev.hh:1634-1654, class `Chebyshev_26_grad`. -/
def Chebyshev_26_grad : ClassText := ⟨"", chars!" 6.7600000000000000e+02*var+-5.2344913920000000e+09*(var*(var*(var*(var*var)*(var*var))*(var*(var*var)*(var*var)))*(var*(var*(var*var)*(var*var))*(var*(var*var)*(var*var))))+1.3795065856000000e+10*(var*((var*(var*var)*(var*var))*(var*(var*var)*(var*var)))*((var*(var*var)*(var*var))*(var*(var*var)*(var*var))))+-3.8072320000000000e+07*(var*(var*var*var)*(var*var*var))+2.0396113920000000e+10*(var*(((var*var)*(var*var))*((var*var)*(var*var)))*(((var*var)*(var*var))*((var*var)*(var*var))))+2.4984960000000000e+06*(var*(var*var)*(var*var))+-1.3208911872000000e+10*(var*(var*(var*var*var)*(var*var*var))*(var*(var*var*var)*(var*var*var)))+5.7788989440000000e+09*(var*((var*var*var)*(var*var*var))*((var*var*var)*(var*var*var)))+-7.5712000000000000e+04*(var*var*var)+8.7241523200000000e+08*(var*(((var*var*var)*(var*var*var))*((var*var*var)*(var*var*var)))*(((var*var*var)*(var*var*var))*((var*var*var)*(var*var*var))))+3.2361472000000000e+08*(var*((var*var)*(var*var))*((var*var)*(var*var)))+-1.6945643520000000e+09*(var*(var*(var*var)*(var*var))*(var*(var*var)*(var*var)))+-2.0992491520000000e+10*(var*(var*((var*var)*(var*var))*((var*var)*(var*var)))*(var*((var*var)*(var*var))*((var*var)*(var*var))))", chars!" 6.7600000000000000e+02*var+-5.2344913920000000e+09*(var*(var*(var*(var*var)*(var*var))*(var*(var*var)*(var*var)))*(var*(var*(var*var)*(var*var))*(var*(var*var)*(var*var))))+1.3795065856000000e+10*(var*((var*(var*var)*(var*var))*(var*(var*var)*(var*var)))*((var*(var*var)*(var*var))*(var*(var*var)*(var*var))))+-3.8072320000000000e+07*(var*(var*var*var)*(var*var*var))+2.0396113920000000e+10*(var*(((var*var)*(var*var))*((var*var)*(var*var)))*(((var*var)*(var*var))*((var*var)*(var*var))))+2.4984960000000000e+06*(var*(var*var)*(var*var))+-1.3208911872000000e+10*(var*(var*(var*var*var)*(var*var*var))*(var*(var*var*var)*(var*var*var)))+5.7788989440000000e+09*(var*((var*var*var)*(var*var*var))*((var*var*var)*(var*var*var)))+-7.5712000000000000e+04*(var*var*var)+8.7241523200000000e+08*(var*(((var*var*var)*(var*var*var))*((var*var*var)*(var*var*var)))*(((var*var*var)*(var*var*var))*((var*var*var)*(var*var*var))))+3.2361472000000000e+08*(var*((var*var)*(var*var))*((var*var)*(var*var)))+-1.6945643520000000e+09*(var*(var*(var*var)*(var*var))*(var*(var*var)*(var*var)))+-2.0992491520000000e+10*(var*(var*((var*var)*(var*var))*((var*var)*(var*var)))*(var*((var*var)*(var*var))*((var*var)*(var*var))))", chars!"-(75712.0)*x^3-(1.3208911872E10)*x^15+(5.778898944E9)*x^13-(1.694564352E9)*x^11+872415232*x^25+(3.2361472E8)*x^9-(2.099249152E10)*x^19-(5.234491392E9)*x^23+(1.3795065856E10)*x^21+(676.0)*x-(3.807232E7)*x^7+(2.039611392E10)*x^17+(2498496.0)*x^5", chars!"-{(75712.0)} x^{3}-{(1.3208911872E10)} x^{15}+{(5.778898944E9)} x^{13}-{(1.694564352E9)} x^{11}+872415232 x^{25}+{(3.2361472E8)} x^{9}-{(2.099249152E10)} x^{19}-{(5.234491392E9)} x^{23}+{(1.3795065856E10)} x^{21}+{(676.0)} x-{(3.807232E7)} x^{7}+{(2.039611392E10)} x^{17}+{(2498496.0)} x^{5}"⟩
/-- Chebyshev.hh:1663-1683, class `Chebyshev_27_grad`. -/
def Chebyshev_27_grad : ClassText := ⟨"", chars!" 1.7146183680000000e+10*((var*(var*var*var)*(var*var*var))*(var*(var*var*var)*(var*var*var)))+5.1774750720000000e+10*((var*((var*var)*(var*var))*((var*var)*(var*var)))*(var*((var*var)*(var*var))*((var*var)*(var*var))))+1.2098211840000000e+09*((var*(var*var)*(var*var))*(var*(var*var)*(var*var)))+-5.5725096960000000e+09*(((var*var*var)*(var*var*var))*((var*var*var)*(var*var*var)))+1.3837824000000000e+07*((var*var*var)*(var*var*var))+-5.8968000000000000e+05*((var*var)*(var*var))+3.1255953408000000e+10*((var*(var*(var*var)*(var*var))*(var*(var*var)*(var*var)))*(var*(var*(var*var)*(var*var))*(var*(var*var)*(var*var))))+1.8119393280000000e+09*((var*((var*var*var)*(var*var*var))*((var*var*var)*(var*var*var)))*(var*((var*var*var)*(var*var*var))*((var*var*var)*(var*var*var))))+-3.6006985728000000e+10*((((var*var)*(var*var))*((var*var)*(var*var)))*(((var*var)*(var*var))*((var*var)*(var*var))))+-5.0139758592000000e+10*(((var*(var*var)*(var*var))*(var*(var*var)*(var*var)))*((var*(var*var)*(var*var))*(var*(var*var)*(var*var))))+9.8280000000000000e+03*(var*var)+-1.6803072000000000e+08*(((var*var)*(var*var))*((var*var)*(var*var)))+-1.1324620800000000e+10*((((var*var*var)*(var*var*var))*((var*var*var)*(var*var*var)))*(((var*var*var)*(var*var*var))*((var*var*var)*(var*var*var))))-2.7000000000000000e+01", chars!" 1.7146183680000000e+10*((var*(var*var*var)*(var*var*var))*(var*(var*var*var)*(var*var*var)))+5.1774750720000000e+10*((var*((var*var)*(var*var))*((var*var)*(var*var)))*(var*((var*var)*(var*var))*((var*var)*(var*var))))+1.2098211840000000e+09*((var*(var*var)*(var*var))*(var*(var*var)*(var*var)))+-5.5725096960000000e+09*(((var*var*var)*(var*var*var))*((var*var*var)*(var*var*var)))+1.3837824000000000e+07*((var*var*var)*(var*var*var))+-5.8968000000000000e+05*((var*var)*(var*var))+3.1255953408000000e+10*((var*(var*(var*var)*(var*var))*(var*(var*var)*(var*var)))*(var*(var*(var*var)*(var*var))*(var*(var*var)*(var*var))))+1.8119393280000000e+09*((var*((var*var*var)*(var*var*var))*((var*var*var)*(var*var*var)))*(var*((var*var*var)*(var*var*var))*((var*var*var)*(var*var*var))))+-3.6006985728000000e+10*((((var*var)*(var*var))*((var*var)*(var*var)))*(((var*var)*(var*var))*((var*var)*(var*var))))+-5.0139758592000000e+10*(((var*(var*var)*(var*var))*(var*(var*var)*(var*var)))*((var*(var*var)*(var*var))*(var*(var*var)*(var*var))))+9.8280000000000000e+03*(var*var)+-1.6803072000000000e+08*(((var*var)*(var*var))*((var*var)*(var*var)))+-1.1324620800000000e+10*((((var*var*var)*(var*var*var))*((var*var*var)*(var*var*var)))*(((var*var*var)*(var*var*var))*((var*var*var)*(var*var*var))))-2.7000000000000000e+01", chars!"-27.0-(5.0139758592E10)*x^20-(3.6006985728E10)*x^16+(9828.0)*x^2-(1.6803072E8)*x^8-(1.13246208E10)*x^24+(5.177475072E10)*x^18+(1.714618368E10)*x^14-(5.572509696E9)*x^12+(1.209821184E9)*x^10+(1.3837824E7)*x^6+1811939328*x^26-(589680.0)*x^4+(3.1255953408E10)*x^22", chars!"-27.0-{(5.0139758592E10)} x^{20}-{(3.6006985728E10)} x^{16}+{(9828.0)} x^{2}-{(1.6803072E8)} x^{8}-{(1.13246208E10)} x^{24}+{(5.177475072E10)} x^{18}+{(1.714618368E10)} x^{14}-{(5.572509696E9)} x^{12}+{(1.209821184E9)} x^{10}+{(1.3837824E7)} x^{6}+1811939328 x^{26}-{(589680.0)} x^{4}+{(3.1255953408E10)} x^{22}"⟩
/-- Chebyshev.hh:1692-1712, class `Chebyshev_28_grad`. -/
def Chebyshev_28_grad : ClassText := ⟨"", chars!" -7.8400000000000000e+02*var+7.0464307200000000e+10*(var*(var*(var*(var*var)*(var*var))*(var*(var*var)*(var*var)))*(var*(var*(var*var)*(var*var))*(var*(var*var)*(var*var))))+3.7580963840000000e+09*(var*(var*((var*var*var)*(var*var*var))*((var*var*var)*(var*var*var)))*(var*((var*var*var)*(var*var*var))*((var*var*var)*(var*var*var))))+-1.1884979814400000e+11*(var*((var*(var*var)*(var*var))*(var*(var*var)*(var*var)))*((var*(var*var)*(var*var))*(var*(var*var)*(var*var))))+6.9701632000000000e+07*(var*(var*var*var)*(var*var*var))+-9.6646201344000000e+10*(var*(((var*var)*(var*var))*((var*var)*(var*var)))*(((var*var)*(var*var))*((var*var)*(var*var))))+-3.9137280000000000e+06*(var*(var*var)*(var*var))+4.9787437056000000e+10*(var*(var*(var*var*var)*(var*var*var))*(var*(var*var*var)*(var*var*var)))+-1.7781227520000000e+10*(var*((var*var*var)*(var*var*var))*((var*var*var)*(var*var*var)))+1.0192000000000000e+05*(var*var*var)+-2.4427626496000000e+10*(var*(((var*var*var)*(var*var*var))*((var*var*var)*(var*var*var)))*(((var*var*var)*(var*var*var))*((var*var*var)*(var*var*var))))+-6.9701632000000000e+08*(var*((var*var)*(var*var))*((var*var)*(var*var)))+4.3341742080000000e+09*(var*(var*(var*var)*(var*var))*(var*(var*var)*(var*var)))+1.2999196672000000e+11*(var*(var*((var*var)*(var*var))*((var*var)*(var*var)))*(var*((var*var)*(var*var))*((var*var)*(var*var))))", chars!" -7.8400000000000000e+02*var+7.0464307200000000e+10*(var*(var*(var*(var*var)*(var*var))*(var*(var*var)*(var*var)))*(var*(var*(var*var)*(var*var))*(var*(var*var)*(var*var))))+3.7580963840000000e+09*(var*(var*((var*var*var)*(var*var*var))*((var*var*var)*(var*var*var)))*(var*((var*var*var)*(var*var*var))*((var*var*var)*(var*var*var))))+-1.1884979814400000e+11*(var*((var*(var*var)*(var*var))*(var*(var*var)*(var*var)))*((var*(var*var)*(var*var))*(var*(var*var)*(var*var))))+6.9701632000000000e+07*(var*(var*var*var)*(var*var*var))+-9.6646201344000000e+10*(var*(((var*var)*(var*var))*((var*var)*(var*var)))*(((var*var)*(var*var))*((var*var)*(var*var))))+-3.9137280000000000e+06*(var*(var*var)*(var*var))+4.9787437056000000e+10*(var*(var*(var*var*var)*(var*var*var))*(var*(var*var*var)*(var*var*var)))+-1.7781227520000000e+10*(var*((var*var*var)*(var*var*var))*((var*var*var)*(var*var*var)))+1.0192000000000000e+05*(var*var*var)+-2.4427626496000000e+10*(var*(((var*var*var)*(var*var*var))*((var*var*var)*(var*var*var)))*(((var*var*var)*(var*var*var))*((var*var*var)*(var*var*var))))+-6.9701632000000000e+08*(var*((var*var)*(var*var))*((var*var)*(var*var)))+4.3341742080000000e+09*(var*(var*(var*var)*(var*var))*(var*(var*var)*(var*var)))+1.2999196672000000e+11*(var*(var*((var*var)*(var*var))*((var*var)*(var*var)))*(var*((var*var)*(var*var))*((var*var)*(var*var))))", chars!"(101920.0)*x^3+(4.9787437056E10)*x^15-(1.778122752E10)*x^13+(4.334174208E9)*x^11-(2.4427626496E10)*x^25-(6.9701632E8)*x^9+(1.2999196672E11)*x^19+3758096384*x^27+(7.04643072E10)*x^23-(1.18849798144E11)*x^21-(784.0)*x+(6.9701632E7)*x^7-(9.6646201344E10)*x^17-(3913728.0)*x^5", chars!"{(101920.0)} x^{3}+{(4.9787437056E10)} x^{15}-{(1.778122752E10)} x^{13}+{(4.334174208E9)} x^{11}-{(2.4427626496E10)} x^{25}-{(6.9701632E8)} x^{9}+{(1.2999196672E11)} x^{19}+3758096384 x^{27}+{(7.04643072E10)} x^{23}-{(1.18849798144E11)} x^{21}-{(784.0)} x+{(6.9701632E7)} x^{7}-{(9.6646201344E10)} x^{17}-{(3913728.0)} x^{5}"⟩
/-- Chebyshev.hh:1721-1741, class `Chebyshev_29_grad`. -/
def Chebyshev_29_grad : ClassText := ⟨"", chars!" -5.5248814080000000e+10*((var*(var*var*var)*(var*var*var))*(var*(var*var*var)*(var*var*var)))+-2.5580562022400000e+11*((var*((var*var)*(var*var))*((var*var)*(var*var)))*(var*((var*var)*(var*var))*((var*var)*(var*var))))+-2.7432570880000000e+09*((var*(var*var)*(var*var))*(var*(var*var)*(var*var)))+1.4963220480000000e+10*(((var*var*var)*(var*var*var))*((var*var*var)*(var*var*var)))+-2.2969856000000000e+07*((var*var*var)*(var*var*var))+8.4448000000000000e+05*((var*var)*(var*var))+-2.7976007680000000e+11*((var*(var*(var*var)*(var*var))*(var*(var*var)*(var*var)))*(var*(var*(var*var)*(var*var))*(var*(var*var)*(var*var))))+-5.2546240512000000e+10*((var*((var*var*var)*(var*var*var))*((var*var*var)*(var*var*var)))*(var*((var*var*var)*(var*var*var))*((var*var*var)*(var*var*var))))+1.4180528947200000e+11*((((var*var)*(var*var))*((var*var)*(var*var)))*(((var*var)*(var*var))*((var*var)*(var*var))))+3.2312288870400000e+11*(((var*(var*var)*(var*var))*(var*(var*var)*(var*var)))*((var*(var*var)*(var*var))*(var*(var*var)*(var*var))))+-1.2180000000000000e+04*(var*var)+3.2485939200000000e+08*(((var*var)*(var*var))*((var*var)*(var*var)))+1.5812526080000000e+11*((((var*var*var)*(var*var*var))*((var*var*var)*(var*var*var)))*(((var*var*var)*(var*var*var))*((var*var*var)*(var*var*var))))+7.7846282240000000e+09*(((var*(var*var*var)*(var*var*var))*(var*(var*var*var)*(var*var*var)))*((var*(var*var*var)*(var*var*var))*(var*(var*var*var)*(var*var*var))))+2.9000000000000000e+01", chars!" -5.5248814080000000e+10*((var*(var*var*var)*(var*var*var))*(var*(var*var*var)*(var*var*var)))+-2.5580562022400000e+11*((var*((var*var)*(var*var))*((var*var)*(var*var)))*(var*((var*var)*(var*var))*((var*var)*(var*var))))+-2.7432570880000000e+09*((var*(var*var)*(var*var))*(var*(var*var)*(var*var)))+1.4963220480000000e+10*(((var*var*var)*(var*var*var))*((var*var*var)*(var*var*var)))+-2.2969856000000000e+07*((var*var*var)*(var*var*var))+8.4448000000000000e+05*((var*var)*(var*var))+-2.7976007680000000e+11*((var*(var*(var*var)*(var*var))*(var*(var*var)*(var*var)))*(var*(var*(var*var)*(var*var))*(var*(var*var)*(var*var))))+-5.2546240512000000e+10*((var*((var*var*var)*(var*var*var))*((var*var*var)*(var*var*var)))*(var*((var*var*var)*(var*var*var))*((var*var*var)*(var*var*var))))+1.4180528947200000e+11*((((var*var)*(var*var))*((var*var)*(var*var)))*(((var*var)*(var*var))*((var*var)*(var*var))))+3.2312288870400000e+11*(((var*(var*var)*(var*var))*(var*(var*var)*(var*var)))*((var*(var*var)*(var*var))*(var*(var*var)*(var*var))))+-1.2180000000000000e+04*(var*var)+3.2485939200000000e+08*(((var*var)*(var*var))*((var*var)*(var*var)))+1.5812526080000000e+11*((((var*var*var)*(var*var*var))*((var*var*var)*(var*var*var)))*(((var*var*var)*(var*var*var))*((var*var*var)*(var*var*var))))+7.7846282240000000e+09*(((var*(var*var*var)*(var*var*var))*(var*(var*var*var)*(var*var*var)))*((var*(var*var*var)*(var*var*var))*(var*(var*var*var)*(var*var*var))))+2.9000000000000000e+01", chars!"29.0+(3.23122888704E11)*x^20+(1.41805289472E11)*x^16-(12180.0)*x^2+(3.24859392E8)*x^8+7784628224*x^28+(1.581252608E11)*x^24-(2.55805620224E11)*x^18-(5.524881408E10)*x^14+(1.496322048E10)*x^12-(2.743257088E9)*x^10-(2.2969856E7)*x^6-(5.2546240512E10)*x^26+(844480.0)*x^4-(2.797600768E11)*x^22", chars!"29.0+{(3.23122888704E11)} x^{20}+{(1.41805289472E11)} x^{16}-{(12180.0)} x^{2}+{(3.24859392E8)} x^{8}+7784628224 x^{28}+{(1.581252608E11)} x^{24}-{(2.55805620224E11)} x^{18}-{(5.524881408E10)} x^{14}+{(1.496322048E10)} x^{12}-{(2.743257088E9)} x^{10}-{(2.2969856E7)} x^{6}-{(5.2546240512E10)} x^{26}+{(844480.0)} x^{4}-{(2.797600768E11)} x^{22}"⟩
/-- Chebyshev.hh:1750-1770, class `Chebyshev_0_hess`. -/
def Chebyshev_0_hess : ClassText := ⟨"", chars!"0.0", chars!"0.0", chars!"0", chars!"0"⟩
/-- Chebyshev.hh:1779-1799, class `Chebyshev_1_hess`. -/
def Chebyshev_1_hess : ClassText := ⟨"", chars!"0.0", chars!"0.0", chars!"0", chars!"0"⟩
/-- Chebyshev.hh:1808-1828, class `Chebyshev_2_hess`. -/
def Chebyshev_2_hess : ClassText := ⟨"", chars!"4.0", chars!"4.0", chars!"4", chars!"4"⟩
/-- Chebyshev.hh:1837-1857, class `Chebyshev_3_hess`. -/
def Chebyshev_3_hess : ClassText := ⟨"", chars!"24.0*var", chars!"24.0*var", chars!"24*x", chars!"24  x"⟩
/-- Chebyshev.hh:1866-1886, class `Chebyshev_4_hess`. -/
def Chebyshev_4_hess : ClassText := ⟨"", chars!" 96.0*(var*var)-1.6000000000000000e+01", chars!" 96.0*(var*var)-1.6000000000000000e+01", chars!"-16.0+96*x^2", chars!"-16.0+96 x^{2}"⟩
/-- Chebyshev.hh:1895-1915, class `Chebyshev_5_hess`. -/
def Chebyshev_5_hess : ClassText := ⟨"", chars!" -1.2000000000000000e+02*var+320.0*(var*var*var)", chars!" -1.2000000000000000e+02*var+320.0*(var*var*var)", chars!"320*x^3-(120.0)*x", chars!"320 x^{3}-{(120.0)} x"⟩
/-- Chebyshev.hh:1924-1944, class `Chebyshev_6_hess`. -/
def Chebyshev_6_hess : ClassText := ⟨"", chars!" 960.0*((var*var)*(var*var))+-5.7600000000000000e+02*(var*var)+3.6000000000000000e+01", chars!" 960.0*((var*var)*(var*var))+-5.7600000000000000e+02*(var*var)+3.6000000000000000e+01", chars!"36.0-(576.0)*x^2+960*x^4", chars!"36.0-{(576.0)} x^{2}+960 x^{4}"⟩
/-- Chebyshev.hh:1953-1973, class `Chebyshev_7_hess`. -/
def Chebyshev_7_hess : ClassText := ⟨"", chars!" 3.3600000000000000e+02*var+2688.0*(var*(var*var)*(var*var))+-2.2400000000000000e+03*(var*var*var)", chars!" 3.3600000000000000e+02*var+2688.0*(var*(var*var)*(var*var))+-2.2400000000000000e+03*(var*var*var)", chars!"-(2240.0)*x^3+(336.0)*x+2688*x^5", chars!"-{(2240.0)} x^{3}+{(336.0)} x+2688 x^{5}"⟩
/-- Chebyshev.hh:1982-2002, class `Chebyshev_8_hess`. -/
def Chebyshev_8_hess : ClassText := ⟨"", chars!" 7168.0*((var*var*var)*(var*var*var))+-7.6800000000000000e+03*((var*var)*(var*var))+1.9200000000000000e+03*(var*var)-6.4000000000000000e+01", chars!" 7168.0*((var*var*var)*(var*var*var))+-7.6800000000000000e+03*((var*var)*(var*var))+1.9200000000000000e+03*(var*var)-6.4000000000000000e+01", chars!"-64.0+(1920.0)*x^2+7168*x^6-(7680.0)*x^4", chars!"-64.0+{(1920.0)} x^{2}+7168 x^{6}-{(7680.0)} x^{4}"⟩
/-- Chebyshev.hh:2011-2031, class `Chebyshev_9_hess`. -/
def Chebyshev_9_hess : ClassText := ⟨"", chars!" -7.2000000000000000e+02*var+18432.0*(var*(var*var*var)*(var*var*var))+-2.4192000000000000e+04*(var*(var*var)*(var*var))+8.6400000000000000e+03*(var*var*var)", chars!" -7.2000000000000000e+02*var+18432.0*(var*(var*var*var)*(var*var*var))+-2.4192000000000000e+04*(var*(var*var)*(var*var))+8.6400000000000000e+03*(var*var*var)", chars!"(8640.0)*x^3-(720.0)*x+18432*x^7-(24192.0)*x^5", chars!"{(8640.0)} x^{3}-{(720.0)} x+18432 x^{7}-{(24192.0)} x^{5}"⟩
/-- Chebyshev.hh:2040-2060, class `Chebyshev_10_hess`. -/
def Chebyshev_10_hess : ClassText := ⟨"", chars!" -7.1680000000000000e+04*((var*var*var)*(var*var*var))+3.3600000000000000e+04*((var*var)*(var*var))+-4.8000000000000000e+03*(var*var)+46080.0*(((var*var)*(var*var))*((var*var)*(var*var)))+1.0000000000000000e+02", chars!" -7.1680000000000000e+04*((var*var*var)*(var*var*var))+3.3600000000000000e+04*((var*var)*(var*var))+-4.8000000000000000e+03*(var*var)+46080.0*(((var*var)*(var*var))*((var*var)*(var*var)))+1.0000000000000000e+02", chars!"100.0-(4800.0)*x^2+46080*x^8-(71680.0)*x^6+(33600.0)*x^4", chars!"100.0-{(4800.0)} x^{2}+46080 x^{8}-{(71680.0)} x^{6}+{(33600.0)} x^{4}"⟩
/-- Chebyshev.hh:2069-2089, class `Chebyshev_11_hess`. -/
def Chebyshev_11_hess : ClassText := ⟨"", chars!" 1.3200000000000000e+03*var+-2.0275200000000000e+05*(var*(var*var*var)*(var*var*var))+1.1827200000000000e+05*(var*(var*var)*(var*var))+-2.4640000000000000e+04*(var*var*var)+112640.0*(var*((var*var)*(var*var))*((var*var)*(var*var)))", chars!" 1.3200000000000000e+03*var+-2.0275200000000000e+05*(var*(var*var*var)*(var*var*var))+1.1827200000000000e+05*(var*(var*var)*(var*var))+-2.4640000000000000e+04*(var*var*var)+112640.0*(var*((var*var)*(var*var))*((var*var)*(var*var)))", chars!"-(24640.0)*x^3+112640*x^9+(1320.0)*x-(202752.0)*x^7+(118272.0)*x^5", chars!"-{(24640.0)} x^{3}+112640 x^{9}+{(1320.0)} x-{(202752.0)} x^{7}+{(118272.0)} x^{5}"⟩
/-- Chebyshev.hh:2098-2118, class `Chebyshev_12_hess`. -/
def Chebyshev_12_hess : ClassText := ⟨"", chars!" 270336.0*((var*(var*var)*(var*var))*(var*(var*var)*(var*var)))+3.8707200000000000e+05*((var*var*var)*(var*var*var))+-1.0752000000000000e+05*((var*var)*(var*var))+1.0080000000000000e+04*(var*var)+-5.5296000000000000e+05*(((var*var)*(var*var))*((var*var)*(var*var)))-1.4400000000000000e+02", chars!" 270336.0*((var*(var*var)*(var*var))*(var*(var*var)*(var*var)))+3.8707200000000000e+05*((var*var*var)*(var*var*var))+-1.0752000000000000e+05*((var*var)*(var*var))+1.0080000000000000e+04*(var*var)+-5.5296000000000000e+05*(((var*var)*(var*var))*((var*var)*(var*var)))-1.4400000000000000e+02", chars!"-144.0+(10080.0)*x^2-(552960.0)*x^8+270336*x^10+(387072.0)*x^6-(107520.0)*x^4", chars!"-144.0+{(10080.0)} x^{2}-{(552960.0)} x^{8}+270336 x^{10}+{(387072.0)} x^{6}-{(107520.0)} x^{4}"⟩
/-- Chebyshev.hh:2127-2147, class `Chebyshev_13_hess`. -/
def Chebyshev_13_hess : ClassText := ⟨"", chars!" -2.1840000000000000e+03*var+1.1980800000000000e+06*(var*(var*var*var)*(var*var*var))+-4.1932800000000000e+05*(var*(var*var)*(var*var))+5.8240000000000000e+04*(var*var*var)+-1.4643200000000000e+06*(var*((var*var)*(var*var))*((var*var)*(var*var)))+638976.0*(var*(var*(var*var)*(var*var))*(var*(var*var)*(var*var)))", chars!" -2.1840000000000000e+03*var+1.1980800000000000e+06*(var*(var*var*var)*(var*var*var))+-4.1932800000000000e+05*(var*(var*var)*(var*var))+5.8240000000000000e+04*(var*var*var)+-1.4643200000000000e+06*(var*((var*var)*(var*var))*((var*var)*(var*var)))+638976.0*(var*(var*(var*var)*(var*var))*(var*(var*var)*(var*var)))", chars!"(58240.0)*x^3+638976*x^11-(1464320.0)*x^9-(2184.0)*x+(1198080.0)*x^7-(419328.0)*x^5", chars!"{(58240.0)} x^{3}+638976 x^{11}-{(1464320.0)} x^{9}-{(2184.0)} x+{(1198080.0)} x^{7}-{(419328.0)} x^{5}"⟩
/-- Chebyshev.hh:2156-2176, class `Chebyshev_14_hess`. -/
def Chebyshev_14_hess : ClassText := ⟨"", chars!" -3.7847040000000000e+06*((var*(var*var)*(var*var))*(var*(var*var)*(var*var)))+1490944.0*(((var*var*var)*(var*var*var))*((var*var*var)*(var*var*var)))+-1.5052800000000000e+06*((var*var*var)*(var*var*var))+2.8224000000000000e+05*((var*var)*(var*var))+-1.8816000000000000e+04*(var*var)+3.5481600000000000e+06*(((var*var)*(var*var))*((var*var)*(var*var)))+1.9600000000000000e+02", chars!" -3.7847040000000000e+06*((var*(var*var)*(var*var))*(var*(var*var)*(var*var)))+1490944.0*(((var*var*var)*(var*var*var))*((var*var*var)*(var*var*var)))+-1.5052800000000000e+06*((var*var*var)*(var*var*var))+2.8224000000000000e+05*((var*var)*(var*var))+-1.8816000000000000e+04*(var*var)+3.5481600000000000e+06*(((var*var)*(var*var))*((var*var)*(var*var)))+1.9600000000000000e+02", chars!"196.0-(18816.0)*x^2+(3548160.0)*x^8+1490944*x^12-(3784704.0)*x^10-(1505280.0)*x^6+(282240.0)*x^4", chars!"196.0-{(18816.0)} x^{2}+{(3548160.0)} x^{8}+1490944 x^{12}-{(3784704.0)} x^{10}-{(1505280.0)} x^{6}+{(282240.0)} x^{4}"⟩
/-- Chebyshev.hh:2185-2205, class `Chebyshev_15_hess`. -/
def Chebyshev_15_hess : ClassText := ⟨"", chars!" 3.3600000000000000e+03*var+-5.0688000000000000e+06*(var*(var*var*var)*(var*var*var))+1.2096000000000000e+06*(var*(var*var)*(var*var))+3440640.0*(var*((var*var*var)*(var*var*var))*((var*var*var)*(var*var*var)))+-1.2096000000000000e+05*(var*var*var)+1.0137600000000000e+07*(var*((var*var)*(var*var))*((var*var)*(var*var)))+-9.5846400000000000e+06*(var*(var*(var*var)*(var*var))*(var*(var*var)*(var*var)))", chars!" 3.3600000000000000e+03*var+-5.0688000000000000e+06*(var*(var*var*var)*(var*var*var))+1.2096000000000000e+06*(var*(var*var)*(var*var))+3440640.0*(var*((var*var*var)*(var*var*var))*((var*var*var)*(var*var*var)))+-1.2096000000000000e+05*(var*var*var)+1.0137600000000000e+07*(var*((var*var)*(var*var))*((var*var)*(var*var)))+-9.5846400000000000e+06*(var*(var*(var*var)*(var*var))*(var*(var*var)*(var*var)))", chars!"-(120960.0)*x^3+3440640*x^13-(9584640.0)*x^11+(1.01376E7)*x^9+(3360.0)*x-(5068800.0)*x^7+(1209600.0)*x^5", chars!"-{(120960.0)} x^{3}+3440640 x^{13}-{(9584640.0)} x^{11}+{(1.01376E7)} x^{9}+{(3360.0)} x-{(5068800.0)} x^{7}+{(1209600.0)} x^{5}"⟩
/-- Chebyshev.hh:2214-2234, class `Chebyshev_16_hess`. -/
def Chebyshev_16_hess : ClassText := ⟨"", chars!" 7864320.0*((var*(var*var*var)*(var*var*var))*(var*(var*var*var)*(var*var*var)))+2.8114944000000000e+07*((var*(var*var)*(var*var))*(var*(var*var)*(var*var)))+-2.3855104000000000e+07*(((var*var*var)*(var*var*var))*((var*var*var)*(var*var*var)))+4.7308800000000000e+06*((var*var*var)*(var*var*var))+-6.4512000000000000e+05*((var*var)*(var*var))+3.2256000000000000e+04*(var*var)+-1.6220160000000000e+07*(((var*var)*(var*var))*((var*var)*(var*var)))-2.5600000000000000e+02", chars!" 7864320.0*((var*(var*var*var)*(var*var*var))*(var*(var*var*var)*(var*var*var)))+2.8114944000000000e+07*((var*(var*var)*(var*var))*(var*(var*var)*(var*var)))+-2.3855104000000000e+07*(((var*var*var)*(var*var*var))*((var*var*var)*(var*var*var)))+4.7308800000000000e+06*((var*var*var)*(var*var*var))+-6.4512000000000000e+05*((var*var)*(var*var))+3.2256000000000000e+04*(var*var)+-1.6220160000000000e+07*(((var*var)*(var*var))*((var*var)*(var*var)))-2.5600000000000000e+02", chars!"-256.0+(32256.0)*x^2-(1.622016E7)*x^8+7864320*x^14-(2.3855104E7)*x^12+(2.8114944E7)*x^10+(4730880.0)*x^6-(645120.0)*x^4", chars!"-256.0+{(32256.0)} x^{2}-{(1.622016E7)} x^{8}+7864320 x^{14}-{(2.3855104E7)} x^{12}+{(2.8114944E7)} x^{10}+{(4730880.0)} x^{6}-{(645120.0)} x^{4}"⟩
/-- Chebyshev.hh:2243-2263, class `Chebyshev_17_hess`. -/
def Chebyshev_17_hess : ClassText := ⟨"", chars!" -4.8960000000000000e+03*var+1.7233920000000000e+07*(var*(var*var*var)*(var*var*var))+-3.0159360000000000e+06*(var*(var*var)*(var*var))+17825792.0*(var*(var*(var*var*var)*(var*var*var))*(var*(var*var*var)*(var*var*var)))+-5.8490880000000000e+07*(var*((var*var*var)*(var*var*var))*((var*var*var)*(var*var*var)))+2.2848000000000000e+05*(var*var*var)+-4.9786880000000000e+07*(var*((var*var)*(var*var))*((var*var)*(var*var)))+7.6038144000000000e+07*(var*(var*(var*var)*(var*var))*(var*(var*var)*(var*var)))", chars!" -4.8960000000000000e+03*var+1.7233920000000000e+07*(var*(var*var*var)*(var*var*var))+-3.0159360000000000e+06*(var*(var*var)*(var*var))+17825792.0*(var*(var*(var*var*var)*(var*var*var))*(var*(var*var*var)*(var*var*var)))+-5.8490880000000000e+07*(var*((var*var*var)*(var*var*var))*((var*var*var)*(var*var*var)))+2.2848000000000000e+05*(var*var*var)+-4.9786880000000000e+07*(var*((var*var)*(var*var))*((var*var)*(var*var)))+7.6038144000000000e+07*(var*(var*(var*var)*(var*var))*(var*(var*var)*(var*var)))", chars!"(228480.0)*x^3+17825792*x^15-(5.849088E7)*x^13+(7.6038144E7)*x^11-(4.978688E7)*x^9-(4896.0)*x+(1.723392E7)*x^7-(3015936.0)*x^5", chars!"{(228480.0)} x^{3}+17825792 x^{15}-{(5.849088E7)} x^{13}+{(7.6038144E7)} x^{11}-{(4.978688E7)} x^{9}-{(4896.0)} x+{(1.723392E7)} x^{7}-{(3015936.0)} x^{5}"⟩
/-- Chebyshev.hh:2272-2292, class `Chebyshev_18_hess`. -/
def Chebyshev_18_hess : ClassText := ⟨"", chars!" -1.4155776000000000e+08*((var*(var*var*var)*(var*var*var))*(var*(var*var*var)*(var*var*var)))+-1.4760345600000000e+08*((var*(var*var)*(var*var))*(var*(var*var)*(var*var)))+2.0127744000000000e+08*(((var*var*var)*(var*var*var))*((var*var*var)*(var*var*var)))+-1.2773376000000000e+07*((var*var*var)*(var*var*var))+1.3305600000000000e+06*((var*var)*(var*var))+40108032.0*((((var*var)*(var*var))*((var*var)*(var*var)))*(((var*var)*(var*var))*((var*var)*(var*var))))+-5.1840000000000000e+04*(var*var)+5.9304960000000000e+07*(((var*var)*(var*var))*((var*var)*(var*var)))+3.2400000000000000e+02", chars!" -1.4155776000000000e+08*((var*(var*var*var)*(var*var*var))*(var*(var*var*var)*(var*var*var)))+-1.4760345600000000e+08*((var*(var*var)*(var*var))*(var*(var*var)*(var*var)))+2.0127744000000000e+08*(((var*var*var)*(var*var*var))*((var*var*var)*(var*var*var)))+-1.2773376000000000e+07*((var*var*var)*(var*var*var))+1.3305600000000000e+06*((var*var)*(var*var))+40108032.0*((((var*var)*(var*var))*((var*var)*(var*var)))*(((var*var)*(var*var))*((var*var)*(var*var))))+-5.1840000000000000e+04*(var*var)+5.9304960000000000e+07*(((var*var)*(var*var))*((var*var)*(var*var)))+3.2400000000000000e+02", chars!"324.0+40108032*x^16-(51840.0)*x^2+(5.930496E7)*x^8-(1.4155776E8)*x^14+(2.0127744E8)*x^12-(1.47603456E8)*x^10-(1.2773376E7)*x^6+(1330560.0)*x^4", chars!"324.0+40108032 x^{16}-{(51840.0)} x^{2}+{(5.930496E7)} x^{8}-{(1.4155776E8)} x^{14}+{(2.0127744E8)} x^{12}-{(1.47603456E8)} x^{10}-{(1.2773376E7)} x^{6}+{(1330560.0)} x^{4}"⟩
/-- Chebyshev.hh:2301-2321, class `Chebyshev_19_hess`. -/
def Chebyshev_19_hess : ClassText := ⟨"", chars!" 6.8400000000000000e+03*var+-5.0079744000000000e+07*(var*(var*var*var)*(var*var*var))+89653248.0*(var*(((var*var)*(var*var))*((var*var)*(var*var)))*(((var*var)*(var*var))*((var*var)*(var*var))))+6.7415040000000000e+06*(var*(var*var)*(var*var))+-3.3869004800000000e+08*(var*(var*(var*var*var)*(var*var*var))*(var*(var*var*var)*(var*var*var)))+5.2297728000000000e+08*(var*((var*var*var)*(var*var*var))*((var*var*var)*(var*var*var)))+-4.0128000000000000e+05*(var*var*var)+1.9475456000000000e+08*(var*((var*var)*(var*var))*((var*var)*(var*var)))+-4.2491904000000000e+08*(var*(var*(var*var)*(var*var))*(var*(var*var)*(var*var)))", chars!" 6.8400000000000000e+03*var+-5.0079744000000000e+07*(var*(var*var*var)*(var*var*var))+89653248.0*(var*(((var*var)*(var*var))*((var*var)*(var*var)))*(((var*var)*(var*var))*((var*var)*(var*var))))+6.7415040000000000e+06*(var*(var*var)*(var*var))+-3.3869004800000000e+08*(var*(var*(var*var*var)*(var*var*var))*(var*(var*var*var)*(var*var*var)))+5.2297728000000000e+08*(var*((var*var*var)*(var*var*var))*((var*var*var)*(var*var*var)))+-4.0128000000000000e+05*(var*var*var)+1.9475456000000000e+08*(var*((var*var)*(var*var))*((var*var)*(var*var)))+-4.2491904000000000e+08*(var*(var*(var*var)*(var*var))*(var*(var*var)*(var*var)))", chars!"-(401280.0)*x^3-(3.38690048E8)*x^15+(5.2297728E8)*x^13-(4.2491904E8)*x^11+(1.9475456E8)*x^9+(6840.0)*x-(5.0079744E7)*x^7+89653248*x^17+(6741504.0)*x^5", chars!"-{(401280.0)} x^{3}-{(3.38690048E8)} x^{15}+{(5.2297728E8)} x^{13}-{(4.2491904E8)} x^{11}+{(1.9475456E8)} x^{9}+{(6840.0)} x-{(5.0079744E7)} x^{7}+89653248 x^{17}+{(6741504.0)} x^{5}"⟩
/-- Chebyshev.hh:2330-2350, class `Chebyshev_20_hess`. -/
def Chebyshev_20_hess : ClassText := ⟨"", chars!" 1.3369344000000000e+09*((var*(var*var*var)*(var*var*var))*(var*(var*var*var)*(var*var*var)))+199229440.0*((var*((var*var)*(var*var))*((var*var)*(var*var)))*(var*((var*var)*(var*var))*((var*var)*(var*var))))+6.1501440000000000e+08*((var*(var*var)*(var*var))*(var*(var*var)*(var*var)))+-1.1927552000000000e+09*(((var*var*var)*(var*var*var))*((var*var*var)*(var*var*var)))+3.0750720000000000e+07*((var*var*var)*(var*var*var))+-2.5344000000000000e+06*((var*var)*(var*var))+-8.0216064000000000e+08*((((var*var)*(var*var))*((var*var)*(var*var)))*(((var*var)*(var*var))*((var*var)*(var*var))))+7.9200000000000000e+04*(var*var)+-1.8450432000000000e+08*(((var*var)*(var*var))*((var*var)*(var*var)))-4.0000000000000000e+02", chars!" 1.3369344000000000e+09*((var*(var*var*var)*(var*var*var))*(var*(var*var*var)*(var*var*var)))+199229440.0*((var*((var*var)*(var*var))*((var*var)*(var*var)))*(var*((var*var)*(var*var))*((var*var)*(var*var))))+6.1501440000000000e+08*((var*(var*var)*(var*var))*(var*(var*var)*(var*var)))+-1.1927552000000000e+09*(((var*var*var)*(var*var*var))*((var*var*var)*(var*var*var)))+3.0750720000000000e+07*((var*var*var)*(var*var*var))+-2.5344000000000000e+06*((var*var)*(var*var))+-8.0216064000000000e+08*((((var*var)*(var*var))*((var*var)*(var*var)))*(((var*var)*(var*var))*((var*var)*(var*var))))+7.9200000000000000e+04*(var*var)+-1.8450432000000000e+08*(((var*var)*(var*var))*((var*var)*(var*var)))-4.0000000000000000e+02", chars!"-400.0-(8.0216064E8)*x^16+(79200.0)*x^2-(1.8450432E8)*x^8+199229440*x^18+(1.3369344E9)*x^14-(1.1927552E9)*x^12+(6.150144E8)*x^10+(3.075072E7)*x^6-(2534400.0)*x^4", chars!"-400.0-{(8.0216064E8)} x^{16}+{(79200.0)} x^{2}-{(1.8450432E8)} x^{8}+199229440 x^{18}+{(1.3369344E9)} x^{14}-{(1.1927552E9)} x^{12}+{(6.150144E8)} x^{10}+{(3.075072E7)} x^{6}-{(2534400.0)} x^{4}"⟩
/-- Chebyshev.hh:2359-2379, class `Chebyshev_21_hess`. -/
def Chebyshev_21_hess : ClassText := ⟨"", chars!" -9.2400000000000000e+03*var+1.2915302400000000e+08*(var*(var*var*var)*(var*var*var))+-1.8827182080000000e+09*(var*(((var*var)*(var*var))*((var*var)*(var*var)))*(((var*var)*(var*var))*((var*var)*(var*var))))+-1.3837824000000000e+07*(var*(var*var)*(var*var))+3.3690746880000000e+09*(var*(var*(var*var*var)*(var*var*var))*(var*(var*var*var)*(var*var*var)))+-3.2754892800000000e+09*(var*((var*var*var)*(var*var*var))*((var*var*var)*(var*var*var)))+6.6528000000000000e+05*(var*var*var)+-6.4576512000000000e+08*(var*((var*var)*(var*var))*((var*var)*(var*var)))+1.8785894400000000e+09*(var*(var*(var*var)*(var*var))*(var*(var*var)*(var*var)))+440401920.0*(var*(var*((var*var)*(var*var))*((var*var)*(var*var)))*(var*((var*var)*(var*var))*((var*var)*(var*var))))", chars!" -9.2400000000000000e+03*var+1.2915302400000000e+08*(var*(var*var*var)*(var*var*var))+-1.8827182080000000e+09*(var*(((var*var)*(var*var))*((var*var)*(var*var)))*(((var*var)*(var*var))*((var*var)*(var*var))))+-1.3837824000000000e+07*(var*(var*var)*(var*var))+3.3690746880000000e+09*(var*(var*(var*var*var)*(var*var*var))*(var*(var*var*var)*(var*var*var)))+-3.2754892800000000e+09*(var*((var*var*var)*(var*var*var))*((var*var*var)*(var*var*var)))+6.6528000000000000e+05*(var*var*var)+-6.4576512000000000e+08*(var*((var*var)*(var*var))*((var*var)*(var*var)))+1.8785894400000000e+09*(var*(var*(var*var)*(var*var))*(var*(var*var)*(var*var)))+440401920.0*(var*(var*((var*var)*(var*var))*((var*var)*(var*var)))*(var*((var*var)*(var*var))*((var*var)*(var*var))))", chars!"(665280.0)*x^3+(3.369074688E9)*x^15-(3.27548928E9)*x^13+(1.87858944E9)*x^11-(6.4576512E8)*x^9+440401920*x^19-(9240.0)*x+(1.29153024E8)*x^7-(1.882718208E9)*x^17-(1.3837824E7)*x^5", chars!"{(665280.0)} x^{3}+{(3.369074688E9)} x^{15}-{(3.27548928E9)} x^{13}+{(1.87858944E9)} x^{11}-{(6.4576512E8)} x^{9}+440401920 x^{19}-{(9240.0)} x+{(1.29153024E8)} x^{7}-{(1.882718208E9)} x^{17}-{(1.3837824E7)} x^{5}"⟩
/-- Chebyshev.hh:2388-2408, class `Chebyshev_22_hess`. -/
def Chebyshev_22_hess : ClassText := ⟨"", chars!" -8.8237670400000000e+09*((var*(var*var*var)*(var*var*var))*(var*(var*var*var)*(var*var*var)))+-4.3830476800000000e+09*((var*((var*var)*(var*var))*((var*var)*(var*var)))*(var*((var*var)*(var*var))*((var*var)*(var*var))))+-2.1648506880000000e+09*((var*(var*var)*(var*var))*(var*(var*var)*(var*var)))+5.5761305600000000e+09*(((var*var*var)*(var*var*var))*((var*var*var)*(var*var*var)))+-6.7651584000000000e+07*((var*var*var)*(var*var*var))+4.5302400000000000e+06*((var*var)*(var*var))+8.3825786880000000e+09*((((var*var)*(var*var))*((var*var)*(var*var)))*(((var*var)*(var*var))*((var*var)*(var*var))))+9.6888422400000000e+08*(((var*(var*var)*(var*var))*(var*(var*var)*(var*var)))*((var*(var*var)*(var*var))*(var*(var*var)*(var*var))))+-1.1616000000000000e+05*(var*var)+5.0738688000000000e+08*(((var*var)*(var*var))*((var*var)*(var*var)))+4.8400000000000000e+02", chars!" -8.8237670400000000e+09*((var*(var*var*var)*(var*var*var))*(var*(var*var*var)*(var*var*var)))+-4.3830476800000000e+09*((var*((var*var)*(var*var))*((var*var)*(var*var)))*(var*((var*var)*(var*var))*((var*var)*(var*var))))+-2.1648506880000000e+09*((var*(var*var)*(var*var))*(var*(var*var)*(var*var)))+5.5761305600000000e+09*(((var*var*var)*(var*var*var))*((var*var*var)*(var*var*var)))+-6.7651584000000000e+07*((var*var*var)*(var*var*var))+4.5302400000000000e+06*((var*var)*(var*var))+8.3825786880000000e+09*((((var*var)*(var*var))*((var*var)*(var*var)))*(((var*var)*(var*var))*((var*var)*(var*var))))+9.6888422400000000e+08*(((var*(var*var)*(var*var))*(var*(var*var)*(var*var)))*((var*(var*var)*(var*var))*(var*(var*var)*(var*var))))+-1.1616000000000000e+05*(var*var)+5.0738688000000000e+08*(((var*var)*(var*var))*((var*var)*(var*var)))+4.8400000000000000e+02", chars!"484.0+968884224*x^20+(8.382578688E9)*x^16-(116160.0)*x^2+(5.0738688E8)*x^8-(4.38304768E9)*x^18-(8.82376704E9)*x^14+(5.57613056E9)*x^12-(2.164850688E9)*x^10-(6.7651584E7)*x^6+(4530240.0)*x^4", chars!"484.0+968884224 x^{20}+{(8.382578688E9)} x^{16}-{(116160.0)} x^{2}+{(5.0738688E8)} x^{8}-{(4.38304768E9)} x^{18}-{(8.82376704E9)} x^{14}+{(5.57613056E9)} x^{12}-{(2.164850688E9)} x^{10}-{(6.7651584E7)} x^{6}+{(4530240.0)} x^{4}"⟩
/-- Chebyshev.hh:2417-2437, class `Chebyshev_23_hess`. -/
def Chebyshev_23_hess : ClassText := ⟨"", chars!" 1.2144000000000000e+04*var+2.1223178240000000e+09*(var*((var*(var*var)*(var*var))*(var*(var*var)*(var*var)))*((var*(var*var)*(var*var))*(var*(var*var)*(var*var))))+-3.0311424000000000e+08*(var*(var*var*var)*(var*var*var))+2.0620247040000000e+10*(var*(((var*var)*(var*var))*((var*var)*(var*var)))*(((var*var)*(var*var))*((var*var)*(var*var))))+2.6522496000000000e+07*(var*(var*var)*(var*var))+-2.3369613312000000e+10*(var*(var*(var*var*var)*(var*var*var))*(var*(var*var*var)*(var*var*var)))+1.6143482880000000e+10*(var*((var*var*var)*(var*var*var))*((var*var*var)*(var*var*var)))+-1.0524800000000000e+06*(var*var*var)+1.8860441600000000e+09*(var*((var*var)*(var*var))*((var*var)*(var*var)))+-6.9955092480000000e+09*(var*(var*(var*var)*(var*var))*(var*(var*var)*(var*var)))+-1.0129244160000000e+10*(var*(var*((var*var)*(var*var))*((var*var)*(var*var)))*(var*((var*var)*(var*var))*((var*var)*(var*var))))", chars!" 1.2144000000000000e+04*var+2.1223178240000000e+09*(var*((var*(var*var)*(var*var))*(var*(var*var)*(var*var)))*((var*(var*var)*(var*var))*(var*(var*var)*(var*var))))+-3.0311424000000000e+08*(var*(var*var*var)*(var*var*var))+2.0620247040000000e+10*(var*(((var*var)*(var*var))*((var*var)*(var*var)))*(((var*var)*(var*var))*((var*var)*(var*var))))+2.6522496000000000e+07*(var*(var*var)*(var*var))+-2.3369613312000000e+10*(var*(var*(var*var*var)*(var*var*var))*(var*(var*var*var)*(var*var*var)))+1.6143482880000000e+10*(var*((var*var*var)*(var*var*var))*((var*var*var)*(var*var*var)))+-1.0524800000000000e+06*(var*var*var)+1.8860441600000000e+09*(var*((var*var)*(var*var))*((var*var)*(var*var)))+-6.9955092480000000e+09*(var*(var*(var*var)*(var*var))*(var*(var*var)*(var*var)))+-1.0129244160000000e+10*(var*(var*((var*var)*(var*var))*((var*var)*(var*var)))*(var*((var*var)*(var*var))*((var*var)*(var*var))))", chars!"-(1052480.0)*x^3-(2.3369613312E10)*x^15+(1.614348288E10)*x^13-(6.995509248E9)*x^11+(1.88604416E9)*x^9-(1.012924416E10)*x^19+2122317824*x^21+(12144.0)*x-(3.0311424E8)*x^7+(2.062024704E10)*x^17+(2.6522496E7)*x^5", chars!"-{(1052480.0)} x^{3}-{(2.3369613312E10)} x^{15}+{(1.614348288E10)} x^{13}-{(6.995509248E9)} x^{11}+{(1.88604416E9)} x^{9}-{(1.012924416E10)} x^{19}+2122317824 x^{21}+{(12144.0)} x-{(3.0311424E8)} x^{7}+{(2.062024704E10)} x^{17}+{(2.6522496E7)} x^{5}"⟩
/-- Chebyshev.hh:2446-2466, class `Chebyshev_24_hess`. -/
def Chebyshev_24_hess : ClassText := ⟨"", chars!" 4.5723156480000000e+10*((var*(var*var*var)*(var*var*var))*(var*(var*var*var)*(var*var*var)))+5.0205818880000000e+10*((var*((var*var)*(var*var))*((var*var)*(var*var)))*(var*((var*var)*(var*var))*((var*var)*(var*var))))+6.6913566720000000e+09*((var*(var*var)*(var*var))*(var*(var*var)*(var*var)))+-2.1898985472000000e+10*(((var*var*var)*(var*var*var))*((var*var*var)*(var*var*var)))+1.3837824000000000e+08*((var*var*var)*(var*var*var))+-7.6876800000000000e+06*((var*var)*(var*var))+4.6305116160000000e+09*((var*(var*(var*var)*(var*var))*(var*(var*var)*(var*var)))*(var*(var*(var*var)*(var*var))*(var*(var*var)*(var*var))))+-6.0964208640000000e+10*((((var*var)*(var*var))*((var*var)*(var*var)))*(((var*var)*(var*var))*((var*var)*(var*var))))+-2.3253221376000000e+10*(((var*(var*var)*(var*var))*(var*(var*var)*(var*var)))*((var*(var*var)*(var*var))*(var*(var*var)*(var*var))))+1.6473600000000000e+05*(var*var)+-1.2651724800000000e+09*(((var*var)*(var*var))*((var*var)*(var*var)))-5.7600000000000000e+02", chars!" 4.5723156480000000e+10*((var*(var*var*var)*(var*var*var))*(var*(var*var*var)*(var*var*var)))+5.0205818880000000e+10*((var*((var*var)*(var*var))*((var*var)*(var*var)))*(var*((var*var)*(var*var))*((var*var)*(var*var))))+6.6913566720000000e+09*((var*(var*var)*(var*var))*(var*(var*var)*(var*var)))+-2.1898985472000000e+10*(((var*var*var)*(var*var*var))*((var*var*var)*(var*var*var)))+1.3837824000000000e+08*((var*var*var)*(var*var*var))+-7.6876800000000000e+06*((var*var)*(var*var))+4.6305116160000000e+09*((var*(var*(var*var)*(var*var))*(var*(var*var)*(var*var)))*(var*(var*(var*var)*(var*var))*(var*(var*var)*(var*var))))+-6.0964208640000000e+10*((((var*var)*(var*var))*((var*var)*(var*var)))*(((var*var)*(var*var))*((var*var)*(var*var))))+-2.3253221376000000e+10*(((var*(var*var)*(var*var))*(var*(var*var)*(var*var)))*((var*(var*var)*(var*var))*(var*(var*var)*(var*var))))+1.6473600000000000e+05*(var*var)+-1.2651724800000000e+09*(((var*var)*(var*var))*((var*var)*(var*var)))-5.7600000000000000e+02", chars!"-576.0-(2.3253221376E10)*x^20-(6.096420864E10)*x^16+(164736.0)*x^2-(1.26517248E9)*x^8+(5.020581888E10)*x^18+(4.572315648E10)*x^14-(2.1898985472E10)*x^12+(6.691356672E9)*x^10+(1.3837824E8)*x^6-(7687680.0)*x^4+4630511616*x^22", chars!"-576.0-{(2.3253221376E10)} x^{20}-{(6.096420864E10)} x^{16}+{(164736.0)} x^{2}-{(1.26517248E9)} x^{8}+{(5.020581888E10)} x^{18}+{(4.572315648E10)} x^{14}-{(2.1898985472E10)} x^{12}+{(6.691356672E9)} x^{10}+{(1.3837824E8)} x^{6}-{(7687680.0)} x^{4}+4630511616 x^{22}"⟩
/-- Chebyshev.hh:2475-2495, class `Chebyshev_25_hess`. -/
def Chebyshev_25_hess : ClassText := ⟨"", chars!" -1.5600000000000000e+04*var+1.0066329600000000e+10*(var*(var*(var*(var*var)*(var*var))*(var*(var*var)*(var*var)))*(var*(var*(var*var)*(var*var))*(var*(var*var)*(var*var))))+-5.3057945600000000e+10*(var*((var*(var*var)*(var*var))*(var*(var*var)*(var*var)))*((var*(var*var)*(var*var))*(var*(var*var)*(var*var))))+6.5894400000000000e+08*(var*(var*var*var)*(var*var*var))+-1.5689318400000000e+11*(var*(((var*var)*(var*var))*((var*var)*(var*var)))*(((var*var)*(var*var))*((var*var)*(var*var))))+-4.8048000000000000e+07*(var*(var*var)*(var*var))+1.2700876800000000e+11*(var*(var*(var*var*var)*(var*var*var))*(var*(var*var*var)*(var*var*var)))+-6.6679603200000000e+10*(var*((var*var*var)*(var*var*var))*((var*var*var)*(var*var*var)))+1.6016000000000000e+06*(var*var*var)+-4.9786880000000000e+09*(var*((var*var)*(var*var))*((var*var)*(var*var)))+2.2811443200000000e+10*(var*(var*(var*var)*(var*var))*(var*(var*var)*(var*var)))+1.2111052800000000e+11*(var*(var*((var*var)*(var*var))*((var*var)*(var*var)))*(var*((var*var)*(var*var))*((var*var)*(var*var))))", chars!" -1.5600000000000000e+04*var+1.0066329600000000e+10*(var*(var*(var*(var*var)*(var*var))*(var*(var*var)*(var*var)))*(var*(var*(var*var)*(var*var))*(var*(var*var)*(var*var))))+-5.3057945600000000e+10*(var*((var*(var*var)*(var*var))*(var*(var*var)*(var*var)))*((var*(var*var)*(var*var))*(var*(var*var)*(var*var))))+6.5894400000000000e+08*(var*(var*var*var)*(var*var*var))+-1.5689318400000000e+11*(var*(((var*var)*(var*var))*((var*var)*(var*var)))*(((var*var)*(var*var))*((var*var)*(var*var))))+-4.8048000000000000e+07*(var*(var*var)*(var*var))+1.2700876800000000e+11*(var*(var*(var*var*var)*(var*var*var))*(var*(var*var*var)*(var*var*var)))+-6.6679603200000000e+10*(var*((var*var*var)*(var*var*var))*((var*var*var)*(var*var*var)))+1.6016000000000000e+06*(var*var*var)+-4.9786880000000000e+09*(var*((var*var)*(var*var))*((var*var)*(var*var)))+2.2811443200000000e+10*(var*(var*(var*var)*(var*var))*(var*(var*var)*(var*var)))+1.2111052800000000e+11*(var*(var*((var*var)*(var*var))*((var*var)*(var*var)))*(var*((var*var)*(var*var))*((var*var)*(var*var))))", chars!"(1601600.0)*x^3+(1.27008768E11)*x^15-(6.66796032E10)*x^13+(2.28114432E10)*x^11-(4.978688E9)*x^9+(1.21110528E11)*x^19+10066329600*x^23-(5.30579456E10)*x^21-(15600.0)*x+(6.58944E8)*x^7-(1.56893184E11)*x^17-(4.8048E7)*x^5", chars!"{(1601600.0)} x^{3}+{(1.27008768E11)} x^{15}-{(6.66796032E10)} x^{13}+{(2.28114432E10)} x^{11}-{(4.978688E9)} x^{9}+{(1.21110528E11)} x^{19}+10066329600 x^{23}-{(5.30579456E10)} x^{21}-{(15600.0)} x+{(6.58944E8)} x^{7}-{(1.56893184E11)} x^{17}-{(4.8048E7)} x^{5}"⟩
/-- Chebyshev.hh:2504-2524, class `Chebyshev_26_hess`. -/
def Chebyshev_26_hess : ClassText := ⟨"", chars!" -1.9813367808000000e+11*((var*(var*var*var)*(var*var*var))*(var*(var*var*var)*(var*var*var)))+-3.9885733888000000e+11*((var*((var*var)*(var*var))*((var*var)*(var*var)))*(var*((var*var)*(var*var))*((var*var)*(var*var))))+-1.8640207872000000e+10*((var*(var*var)*(var*var))*(var*(var*var)*(var*var)))+7.5125686272000000e+10*(((var*var*var)*(var*var*var))*((var*var*var)*(var*var*var)))+-2.6650624000000000e+08*((var*var*var)*(var*var*var))+1.2492480000000000e+07*((var*var)*(var*var))+-1.2039330201600000e+11*((var*(var*(var*var)*(var*var))*(var*(var*var)*(var*var)))*(var*(var*(var*var)*(var*var))*(var*(var*var)*(var*var))))+3.4673393664000000e+11*((((var*var)*(var*var))*((var*var)*(var*var)))*(((var*var)*(var*var))*((var*var)*(var*var))))+2.8969638297600000e+11*(((var*(var*var)*(var*var))*(var*(var*var)*(var*var)))*((var*(var*var)*(var*var))*(var*(var*var)*(var*var))))+-2.2713600000000000e+05*(var*var)+2.9125324800000000e+09*(((var*var)*(var*var))*((var*var)*(var*var)))+2.1810380800000000e+10*((((var*var*var)*(var*var*var))*((var*var*var)*(var*var*var)))*(((var*var*var)*(var*var*var))*((var*var*var)*(var*var*var))))+6.7600000000000000e+02", chars!" -1.9813367808000000e+11*((var*(var*var*var)*(var*var*var))*(var*(var*var*var)*(var*var*var)))+-3.9885733888000000e+11*((var*((var*var)*(var*var))*((var*var)*(var*var)))*(var*((var*var)*(var*var))*((var*var)*(var*var))))+-1.8640207872000000e+10*((var*(var*var)*(var*var))*(var*(var*var)*(var*var)))+7.5125686272000000e+10*(((var*var*var)*(var*var*var))*((var*var*var)*(var*var*var)))+-2.6650624000000000e+08*((var*var*var)*(var*var*var))+1.2492480000000000e+07*((var*var)*(var*var))+-1.2039330201600000e+11*((var*(var*(var*var)*(var*var))*(var*(var*var)*(var*var)))*(var*(var*(var*var)*(var*var))*(var*(var*var)*(var*var))))+3.4673393664000000e+11*((((var*var)*(var*var))*((var*var)*(var*var)))*(((var*var)*(var*var))*((var*var)*(var*var))))+2.8969638297600000e+11*(((var*(var*var)*(var*var))*(var*(var*var)*(var*var)))*((var*(var*var)*(var*var))*(var*(var*var)*(var*var))))+-2.2713600000000000e+05*(var*var)+2.9125324800000000e+09*(((var*var)*(var*var))*((var*var)*(var*var)))+2.1810380800000000e+10*((((var*var*var)*(var*var*var))*((var*var*var)*(var*var*var)))*(((var*var*var)*(var*var*var))*((var*var*var)*(var*var*var))))+6.7600000000000000e+02", chars!"676.0+(2.89696382976E11)*x^20+(3.4673393664E11)*x^16-(227136.0)*x^2+(2.91253248E9)*x^8+21810380800*x^24-(3.9885733888E11)*x^18-(1.9813367808E11)*x^14+(7.5125686272E10)*x^12-(1.8640207872E10)*x^10-(2.6650624E8)*x^6+(1.249248E7)*x^4-(1.20393302016E11)*x^22", chars!"676.0+{(2.89696382976E11)} x^{20}+{(3.4673393664E11)} x^{16}-{(227136.0)} x^{2}+{(2.91253248E9)} x^{8}+21810380800 x^{24}-{(3.9885733888E11)} x^{18}-{(1.9813367808E11)} x^{14}+{(7.5125686272E10)} x^{12}-{(1.8640207872E10)} x^{10}-{(2.6650624E8)} x^{6}+{(1.249248E7)} x^{4}-{(1.20393302016E11)} x^{22}"⟩
/-- Chebyshev.hh:2533-2553, class `Chebyshev_27_hess`. -/
def Chebyshev_27_hess : ClassText := ⟨"", chars!" 1.9656000000000000e+04*var+-2.7179089920000000e+11*(var*(var*(var*(var*var)*(var*var))*(var*(var*var)*(var*var)))*(var*(var*(var*var)*(var*var))*(var*(var*var)*(var*var))))+6.8763097497600000e+11*(var*((var*(var*var)*(var*var))*(var*(var*var)*(var*var)))*((var*(var*var)*(var*var))*(var*(var*var)*(var*var))))+-1.3442457600000000e+09*(var*(var*var*var)*(var*var*var))+9.3194551296000000e+11*(var*(((var*var)*(var*var))*((var*var)*(var*var)))*(((var*var)*(var*var))*((var*var)*(var*var))))+8.3026944000000000e+07*(var*(var*var)*(var*var))+-5.7611177164800000e+11*(var*(var*(var*var*var)*(var*var*var))*(var*(var*var*var)*(var*var*var)))+2.4004657152000000e+11*(var*((var*var*var)*(var*var*var))*((var*var*var)*(var*var*var)))+-2.3587200000000000e+06*(var*var*var)+4.7110422528000000e+10*(var*(((var*var*var)*(var*var*var))*((var*var*var)*(var*var*var)))*(((var*var*var)*(var*var*var))*((var*var*var)*(var*var*var))))+1.2098211840000000e+10*(var*((var*var)*(var*var))*((var*var)*(var*var)))+-6.6870116352000000e+10*(var*(var*(var*var)*(var*var))*(var*(var*var)*(var*var)))+-1.0027951718400000e+12*(var*(var*((var*var)*(var*var))*((var*var)*(var*var)))*(var*((var*var)*(var*var))*((var*var)*(var*var))))", chars!" 1.9656000000000000e+04*var+-2.7179089920000000e+11*(var*(var*(var*(var*var)*(var*var))*(var*(var*var)*(var*var)))*(var*(var*(var*var)*(var*var))*(var*(var*var)*(var*var))))+6.8763097497600000e+11*(var*((var*(var*var)*(var*var))*(var*(var*var)*(var*var)))*((var*(var*var)*(var*var))*(var*(var*var)*(var*var))))+-1.3442457600000000e+09*(var*(var*var*var)*(var*var*var))+9.3194551296000000e+11*(var*(((var*var)*(var*var))*((var*var)*(var*var)))*(((var*var)*(var*var))*((var*var)*(var*var))))+8.3026944000000000e+07*(var*(var*var)*(var*var))+-5.7611177164800000e+11*(var*(var*(var*var*var)*(var*var*var))*(var*(var*var*var)*(var*var*var)))+2.4004657152000000e+11*(var*((var*var*var)*(var*var*var))*((var*var*var)*(var*var*var)))+-2.3587200000000000e+06*(var*var*var)+4.7110422528000000e+10*(var*(((var*var*var)*(var*var*var))*((var*var*var)*(var*var*var)))*(((var*var*var)*(var*var*var))*((var*var*var)*(var*var*var))))+1.2098211840000000e+10*(var*((var*var)*(var*var))*((var*var)*(var*var)))+-6.6870116352000000e+10*(var*(var*(var*var)*(var*var))*(var*(var*var)*(var*var)))+-1.0027951718400000e+12*(var*(var*((var*var)*(var*var))*((var*var)*(var*var)))*(var*((var*var)*(var*var))*((var*var)*(var*var))))", chars!"-(2358720.0)*x^3-(5.76111771648E11)*x^15+(2.4004657152E11)*x^13-(6.6870116352E10)*x^11+47110422528*x^25+(1.209821184E10)*x^9-(1.00279517184E12)*x^19-(2.717908992E11)*x^23+(6.87630974976E11)*x^21+(19656.0)*x-(1.34424576E9)*x^7+(9.3194551296E11)*x^17+(8.3026944E7)*x^5", chars!"-{(2358720.0)} x^{3}-{(5.76111771648E11)} x^{15}+{(2.4004657152E11)} x^{13}-{(6.6870116352E10)} x^{11}+47110422528 x^{25}+{(1.209821184E10)} x^{9}-{(1.00279517184E12)} x^{19}-{(2.717908992E11)} x^{23}+{(6.87630974976E11)} x^{21}+{(19656.0)} x-{(1.34424576E9)} x^{7}+{(9.3194551296E11)} x^{17}+{(8.3026944E7)} x^{5}"⟩
/-- Chebyshev.hh:2562-2582, class `Chebyshev_28_hess`. -/
def Chebyshev_28_hess : ClassText := ⟨"", chars!" 7.4681155584000000e+11*((var*(var*var*var)*(var*var*var))*(var*(var*var*var)*(var*var*var)))+2.4698473676800000e+12*((var*((var*var)*(var*var))*((var*var)*(var*var)))*(var*((var*var)*(var*var))*((var*var)*(var*var))))+4.7675916288000000e+10*((var*(var*var)*(var*var))*(var*(var*var)*(var*var)))+-2.3115595776000000e+11*(((var*var*var)*(var*var*var))*((var*var*var)*(var*var*var)))+4.8791142400000000e+08*((var*var*var)*(var*var*var))+-1.9568640000000000e+07*((var*var)*(var*var))+1.6206790656000000e+12*((var*(var*(var*var)*(var*var))*(var*(var*var)*(var*var)))*(var*(var*(var*var)*(var*var))*(var*(var*var)*(var*var))))+1.0146860236800000e+11*((var*((var*var*var)*(var*var*var))*((var*var*var)*(var*var*var)))*(var*((var*var*var)*(var*var*var))*((var*var*var)*(var*var*var))))+-1.6429854228480000e+12*((((var*var)*(var*var))*((var*var)*(var*var)))*(((var*var)*(var*var))*((var*var)*(var*var))))+-2.4958457610240000e+12*(((var*(var*var)*(var*var))*(var*(var*var)*(var*var)))*((var*(var*var)*(var*var))*(var*(var*var)*(var*var))))+3.0576000000000000e+05*(var*var)+-6.2731468800000000e+09*(((var*var)*(var*var))*((var*var)*(var*var)))+-6.1069066240000000e+11*((((var*var*var)*(var*var*var))*((var*var*var)*(var*var*var)))*(((var*var*var)*(var*var*var))*((var*var*var)*(var*var*var))))-7.8400000000000000e+02", chars!" 7.4681155584000000e+11*((var*(var*var*var)*(var*var*var))*(var*(var*var*var)*(var*var*var)))+2.4698473676800000e+12*((var*((var*var)*(var*var))*((var*var)*(var*var)))*(var*((var*var)*(var*var))*((var*var)*(var*var))))+4.7675916288000000e+10*((var*(var*var)*(var*var))*(var*(var*var)*(var*var)))+-2.3115595776000000e+11*(((var*var*var)*(var*var*var))*((var*var*var)*(var*var*var)))+4.8791142400000000e+08*((var*var*var)*(var*var*var))+-1.9568640000000000e+07*((var*var)*(var*var))+1.6206790656000000e+12*((var*(var*(var*var)*(var*var))*(var*(var*var)*(var*var)))*(var*(var*(var*var)*(var*var))*(var*(var*var)*(var*var))))+1.0146860236800000e+11*((var*((var*var*var)*(var*var*var))*((var*var*var)*(var*var*var)))*(var*((var*var*var)*(var*var*var))*((var*var*var)*(var*var*var))))+-1.6429854228480000e+12*((((var*var)*(var*var))*((var*var)*(var*var)))*(((var*var)*(var*var))*((var*var)*(var*var))))+-2.4958457610240000e+12*(((var*(var*var)*(var*var))*(var*(var*var)*(var*var)))*((var*(var*var)*(var*var))*(var*(var*var)*(var*var))))+3.0576000000000000e+05*(var*var)+-6.2731468800000000e+09*(((var*var)*(var*var))*((var*var)*(var*var)))+-6.1069066240000000e+11*((((var*var*var)*(var*var*var))*((var*var*var)*(var*var*var)))*(((var*var*var)*(var*var*var))*((var*var*var)*(var*var*var))))-7.8400000000000000e+02", chars!"-784.0-(2.495845761024E12)*x^20-(1.642985422848E12)*x^16+(305760.0)*x^2-(6.27314688E9)*x^8-(6.106906624E11)*x^24+(2.46984736768E12)*x^18+(7.4681155584E11)*x^14-(2.3115595776E11)*x^12+(4.7675916288E10)*x^10+(4.87911424E8)*x^6+101468602368*x^26-(1.956864E7)*x^4+(1.6206790656E12)*x^22", chars!"-784.0-{(2.495845761024E12)} x^{20}-{(1.642985422848E12)} x^{16}+{(305760.0)} x^{2}-{(6.27314688E9)} x^{8}-{(6.106906624E11)} x^{24}+{(2.46984736768E12)} x^{18}+{(7.4681155584E11)} x^{14}-{(2.3115595776E11)} x^{12}+{(4.7675916288E10)} x^{10}+{(4.87911424E8)} x^{6}+101468602368 x^{26}-{(1.956864E7)} x^{4}+{(1.6206790656E12)} x^{22}"⟩
/-- Chebyshev.hh:2591-2611, class `Chebyshev_29_hess`. -/
def Chebyshev_29_hess : ClassText := ⟨"", chars!" -2.4360000000000000e+04*var+3.7950062592000000e+12*(var*(var*(var*(var*var)*(var*var))*(var*(var*var)*(var*var)))*(var*(var*(var*var)*(var*var))*(var*(var*var)*(var*var))))+2.1796959027200000e+11*(var*(var*((var*var*var)*(var*var*var))*((var*var*var)*(var*var*var)))*(var*((var*var*var)*(var*var*var))*((var*var*var)*(var*var*var))))+-6.1547216896000000e+12*(var*((var*(var*var)*(var*var))*(var*(var*var)*(var*var)))*((var*(var*var)*(var*var))*(var*(var*var)*(var*var))))+2.5988751360000000e+09*(var*(var*var*var)*(var*var*var))+-4.6045011640320000e+12*(var*(((var*var)*(var*var))*((var*var)*(var*var)))*(((var*var)*(var*var))*((var*var)*(var*var))))+-1.3781913600000000e+08*(var*(var*var)*(var*var))+2.2688846315520000e+12*(var*(var*(var*var*var)*(var*var*var))*(var*(var*var*var)*(var*var*var)))+-7.7348339712000000e+11*(var*((var*var*var)*(var*var*var))*((var*var*var)*(var*var*var)))+3.3779200000000000e+06*(var*var*var)+-1.3662022533120000e+12*(var*(((var*var*var)*(var*var*var))*((var*var*var)*(var*var*var)))*(((var*var*var)*(var*var*var))*((var*var*var)*(var*var*var))))+-2.7432570880000000e+10*(var*((var*var)*(var*var))*((var*var)*(var*var)))+1.7955864576000000e+11*(var*(var*(var*var)*(var*var))*(var*(var*var)*(var*var)))+6.4624577740800000e+12*(var*(var*((var*var)*(var*var))*((var*var)*(var*var)))*(var*((var*var)*(var*var))*((var*var)*(var*var))))", chars!" -2.4360000000000000e+04*var+3.7950062592000000e+12*(var*(var*(var*(var*var)*(var*var))*(var*(var*var)*(var*var)))*(var*(var*(var*var)*(var*var))*(var*(var*var)*(var*var))))+2.1796959027200000e+11*(var*(var*((var*var*var)*(var*var*var))*((var*var*var)*(var*var*var)))*(var*((var*var*var)*(var*var*var))*((var*var*var)*(var*var*var))))+-6.1547216896000000e+12*(var*((var*(var*var)*(var*var))*(var*(var*var)*(var*var)))*((var*(var*var)*(var*var))*(var*(var*var)*(var*var))))+2.5988751360000000e+09*(var*(var*var*var)*(var*var*var))+-4.6045011640320000e+12*(var*(((var*var)*(var*var))*((var*var)*(var*var)))*(((var*var)*(var*var))*((var*var)*(var*var))))+-1.3781913600000000e+08*(var*(var*var)*(var*var))+2.2688846315520000e+12*(var*(var*(var*var*var)*(var*var*var))*(var*(var*var*var)*(var*var*var)))+-7.7348339712000000e+11*(var*((var*var*var)*(var*var*var))*((var*var*var)*(var*var*var)))+3.3779200000000000e+06*(var*var*var)+-1.3662022533120000e+12*(var*(((var*var*var)*(var*var*var))*((var*var*var)*(var*var*var)))*(((var*var*var)*(var*var*var))*((var*var*var)*(var*var*var))))+-2.7432570880000000e+10*(var*((var*var)*(var*var))*((var*var)*(var*var)))+1.7955864576000000e+11*(var*(var*(var*var)*(var*var))*(var*(var*var)*(var*var)))+6.4624577740800000e+12*(var*(var*((var*var)*(var*var))*((var*var)*(var*var)))*(var*((var*var)*(var*var))*((var*var)*(var*var))))", chars!"(3377920.0)*x^3+(2.268884631552E12)*x^15-(7.7348339712E11)*x^13+(1.7955864576E11)*x^11-(1.366202253312E12)*x^25-(2.743257088E10)*x^9+(6.46245777408E12)*x^19+217969590272*x^27+(3.7950062592E12)*x^23-(6.1547216896E12)*x^21-(24360.0)*x+(2.598875136E9)*x^7-(4.604501164032E12)*x^17-(1.37819136E8)*x^5", chars!"{(3377920.0)} x^{3}+{(2.268884631552E12)} x^{15}-{(7.7348339712E11)} x^{13}+{(1.7955864576E11)} x^{11}-{(1.366202253312E12)} x^{25}-{(2.743257088E10)} x^{9}+{(6.46245777408E12)} x^{19}+217969590272 x^{27}+{(3.7950062592E12)} x^{23}-{(6.1547216896E12)} x^{21}-{(24360.0)} x+{(2.598875136E9)} x^{7}-{(4.604501164032E12)} x^{17}-{(1.37819136E8)} x^{5}"⟩

/-- Chebyshev.hh:2672-2851, the `switch` of `basis_function`: name, function, gradient, Hessian. -/
def chebyshevTerms : List TermText := [
  ⟨"Chebyshev_0", Chebyshev_0, Chebyshev_0_grad, Chebyshev_0_hess⟩,
  ⟨"Chebyshev_1", Chebyshev_1, Chebyshev_1_grad, Chebyshev_1_hess⟩,
  ⟨"Chebyshev_2", Chebyshev_2, Chebyshev_2_grad, Chebyshev_2_hess⟩,
  ⟨"Chebyshev_3", Chebyshev_3, Chebyshev_3_grad, Chebyshev_3_hess⟩,
  ⟨"Chebyshev_4", Chebyshev_4, Chebyshev_4_grad, Chebyshev_4_hess⟩,
  ⟨"Chebyshev_5", Chebyshev_5, Chebyshev_5_grad, Chebyshev_5_hess⟩,
  ⟨"Chebyshev_6", Chebyshev_6, Chebyshev_6_grad, Chebyshev_6_hess⟩,
  ⟨"Chebyshev_7", Chebyshev_7, Chebyshev_7_grad, Chebyshev_7_hess⟩,
  ⟨"Chebyshev_8", Chebyshev_8, Chebyshev_8_grad, Chebyshev_8_hess⟩,
  ⟨"Chebyshev_9", Chebyshev_9, Chebyshev_9_grad, Chebyshev_9_hess⟩,
  ⟨"Chebyshev_10", Chebyshev_10, Chebyshev_10_grad, Chebyshev_10_hess⟩,
  ⟨"Chebyshev_11", Chebyshev_11, Chebyshev_11_grad, Chebyshev_11_hess⟩,
  ⟨"Chebyshev_12", Chebyshev_12, Chebyshev_12_grad, Chebyshev_12_hess⟩,
  ⟨"Chebyshev_13", Chebyshev_13, Chebyshev_13_grad, Chebyshev_13_hess⟩,
  ⟨"Chebyshev_14", Chebyshev_14, Chebyshev_14_grad, Chebyshev_14_hess⟩,
  ⟨"Chebyshev_15", Chebyshev_15, Chebyshev_15_grad, Chebyshev_15_hess⟩,
  ⟨"Chebyshev_16", Chebyshev_16, Chebyshev_16_grad, Chebyshev_16_hess⟩,
  ⟨"Chebyshev_17", Chebyshev_17, Chebyshev_17_grad, Chebyshev_17_hess⟩,
  ⟨"Chebyshev_18", Chebyshev_18, Chebyshev_18_grad, Chebyshev_18_hess⟩,
  ⟨"Chebyshev_19", Chebyshev_19, Chebyshev_19_grad, Chebyshev_19_hess⟩,
  ⟨"Chebyshev_20", Chebyshev_20, Chebyshev_20_grad, Chebyshev_20_hess⟩,
  ⟨"Chebyshev_21", Chebyshev_21, Chebyshev_21_grad, Chebyshev_21_hess⟩,
  ⟨"Chebyshev_22", Chebyshev_22, Chebyshev_22_grad, Chebyshev_22_hess⟩,
  ⟨"Chebyshev_23", Chebyshev_23, Chebyshev_23_grad, Chebyshev_23_hess⟩,
  ⟨"Chebyshev_24", Chebyshev_24, Chebyshev_24_grad, Chebyshev_24_hess⟩,
  ⟨"Chebyshev_25", Chebyshev_25, Chebyshev_25_grad, Chebyshev_25_hess⟩,
  ⟨"Chebyshev_26", Chebyshev_26, Chebyshev_26_grad, Chebyshev_26_hess⟩,
  ⟨"Chebyshev_27", Chebyshev_27, Chebyshev_27_grad, Chebyshev_27_hess⟩,
  ⟨"Chebyshev_28", Chebyshev_28, Chebyshev_28_grad, Chebyshev_28_hess⟩,
  ⟨"Chebyshev_29", Chebyshev_29, Chebyshev_29_grad, Chebyshev_29_hess⟩]

/-- Quadratic.hh:11-37, class `Quadratic_f`. -/
def Quadratic_f : ClassText := ⟨"Quadratic_f", chars!" var[0]+(var[0]*var[0])+1.0", chars!" var[0]+(var[0]*var[0])+1.0", chars!"1+x+x^2", chars!"1+x^{2}+x"⟩
/-- Quadratic.hh:47-73, class `Quadratic_grad_0`. -/
def Quadratic_grad_0 : ClassText := ⟨"Quadratic_grad_0", chars!" 2.0*var[0]+1.0", chars!" 2.0*var[0]+1.0", chars!"1+2*x", chars!"1+2 x"⟩
/-- Quadratic.hh:83-109, class `Quadratic_hess_0_0`. -/
def Quadratic_hess_0_0 : ClassText := ⟨"Quadratic_hess_0_0", chars!"2.0", chars!"2.0", chars!"2", chars!"2"⟩

/-- MyFunc.hh:11-37, class `MyFunc_f`. -/
def MyFunc_f : ClassText := ⟨"MyFunc_f", chars!" (var[0]*var[0])*var[1]+(var[0]*var[0]*var[0])+var[0]*(var[1]*var[1])+(var[1]*var[1]*var[1])", chars!" (var[0]*var[0])*var[1]+(var[0]*var[0]*var[0])+var[0]*(var[1]*var[1])+(var[1]*var[1]*var[1])", chars!"x*y^2+y^3+x^2*y+x^3", chars!" y^{2} x+y^{3}+ y x^{2}+x^{3}"⟩
/-- MyFunc.hh:47-73, class `MyFunc_grad_0`. -/
def MyFunc_grad_0 : ClassText := ⟨"MyFunc_grad_0", chars!" 2.0*var[1]*var[0]+3.0*(var[0]*var[0])+(var[1]*var[1])", chars!" 2.0*var[1]*var[0]+3.0*(var[0]*var[0])+(var[1]*var[1])", chars!"y^2+2*x*y+3*x^2", chars!"3 x^{2}+y^{2}+2  x y"⟩
/-- MyFunc.hh:83-109, class `MyFunc_grad_1`. -/
def MyFunc_grad_1 : ClassText := ⟨"MyFunc_grad_1", chars!" 3.0*(var[1]*var[1])+2.0*var[1]*var[0]+(var[0]*var[0])", chars!" 3.0*(var[1]*var[1])+2.0*var[1]*var[0]+(var[0]*var[0])", chars!"x^2+3*y^2+2*x*y", chars!"3 y^{2}+2  x y+x^{2}"⟩
/-- MyFunc.hh:119-145, class `MyFunc_hess_0_0`. -/
def MyFunc_hess_0_0 : ClassText := ⟨"MyFunc_hess_0_0", chars!" 6.0*var[0]+2.0*var[1]", chars!" 6.0*var[0]+2.0*var[1]", chars!"2*y+6*x", chars!"6 x+2 y"⟩
/-- MyFunc.hh:155-181, class `MyFunc_hess_0_1`. -/
def MyFunc_hess_0_1 : ClassText := ⟨"MyFunc_hess_0_1", chars!" 2.0*var[0]+2.0*var[1]", chars!" 2.0*var[0]+2.0*var[1]", chars!"2*y+2*x", chars!"2 y+2 x"⟩
/-- MyFunc.hh:191-217, class `MyFunc_hess_1_0`. -/
def MyFunc_hess_1_0 : ClassText := ⟨"MyFunc_hess_1_0", chars!" 2.0*var[1]+2.0*var[0]", chars!" 2.0*var[1]+2.0*var[0]", chars!"2*x+2*y", chars!"2 x+2 y"⟩
/-- MyFunc.hh:227-253, class `MyFunc_hess_1_1`. -/
def MyFunc_hess_1_1 : ClassText := ⟨"MyFunc_hess_1_1", chars!" 2.0*var[0]+6.0*var[1]", chars!" 2.0*var[0]+6.0*var[1]", chars!"6*y+2*x", chars!"2 x+6 y"⟩

/-- MyPieceWiseFunc.hh:12-38, class `MyPieceWiseFunc_piece0_f`. -/
def MyPieceWiseFunc_piece0_f : ClassText := ⟨"MyPieceWiseFunc_piece0_f", chars!"var[0]", chars!"var[0]", chars!"x", chars!"x"⟩
/-- MyPieceWiseFunc.hh:48-74, class `MyPieceWiseFunc_piece0_grad_0`. -/
def MyPieceWiseFunc_piece0_grad_0 : ClassText := ⟨"MyPieceWiseFunc_piece0_grad_0", chars!"1.0", chars!"1.0", chars!"1", chars!"1"⟩
/-- MyPieceWiseFunc.hh:84-110, class `MyPieceWiseFunc_piece0_grad_1`. -/
def MyPieceWiseFunc_piece0_grad_1 : ClassText := ⟨"MyPieceWiseFunc_piece0_grad_1", chars!"0.0", chars!"0.0", chars!"0", chars!"0"⟩
/-- MyPieceWiseFunc.hh:120-146, class `MyPieceWiseFunc_piece0_hess_0_0`. -/
def MyPieceWiseFunc_piece0_hess_0_0 : ClassText := ⟨"MyPieceWiseFunc_piece0_hess_0_0", chars!"0.0", chars!"0.0", chars!"0", chars!"0"⟩
/-- MyPieceWiseFunc.hh:156-182, class `MyPieceWiseFunc_piece0_hess_0_1`. -/
def MyPieceWiseFunc_piece0_hess_0_1 : ClassText := ⟨"MyPieceWiseFunc_piece0_hess_0_1", chars!"0.0", chars!"0.0", chars!"0", chars!"0"⟩
/-- MyPieceWiseFunc.hh:192-218, class `MyPieceWiseFunc_piece0_hess_1_0`. -/
def MyPieceWiseFunc_piece0_hess_1_0 : ClassText := ⟨"MyPieceWiseFunc_piece0_hess_1_0", chars!"0.0", chars!"0.0", chars!"0", chars!"0"⟩
/-- MyPieceWiseFunc.hh:228-254, class `MyPieceWiseFunc_piece0_hess_1_1`. -/
def MyPieceWiseFunc_piece0_hess_1_1 : ClassText := ⟨"MyPieceWiseFunc_piece0_hess_1_1", chars!"0.0", chars!"0.0", chars!"0", chars!"0"⟩
/-- MyPieceWiseFunc.hh:411-437, class `MyPieceWiseFunc_piece0_cond0`. -/
def MyPieceWiseFunc_piece0_cond0 : ClassText := ⟨"MyPieceWiseFunc_piece0_cond0", chars!"var[0] < 0.0", chars!"var[0] < 0.0", chars!"x < 0", chars!"x < 0"⟩
/-- MyPieceWiseFunc.hh:447-473, class `MyPieceWiseFunc_piece1_f`. -/
def MyPieceWiseFunc_piece1_f : ClassText := ⟨"MyPieceWiseFunc_piece1_f", chars!" (var[0]*var[0])+(var[1]*var[1])", chars!" (var[0]*var[0])+(var[1]*var[1])", chars!"y^2+x^2", chars!"y^{2}+x^{2}"⟩
/-- MyPieceWiseFunc.hh:483-509, class `MyPieceWiseFunc_piece1_grad_0`. -/
def MyPieceWiseFunc_piece1_grad_0 : ClassText := ⟨"MyPieceWiseFunc_piece1_grad_0", chars!"2.0*var[0]", chars!"2.0*var[0]", chars!"2*x", chars!"2  x"⟩
/-- MyPieceWiseFunc.hh:519-545, class `MyPieceWiseFunc_piece1_grad_1`. -/
def MyPieceWiseFunc_piece1_grad_1 : ClassText := ⟨"MyPieceWiseFunc_piece1_grad_1", chars!"2.0*var[1]", chars!"2.0*var[1]", chars!"2*y", chars!"2  y"⟩
/-- MyPieceWiseFunc.hh:555-581, class `MyPieceWiseFunc_piece1_hess_0_0`. -/
def MyPieceWiseFunc_piece1_hess_0_0 : ClassText := ⟨"MyPieceWiseFunc_piece1_hess_0_0", chars!"2.0", chars!"2.0", chars!"2", chars!"2"⟩
/-- MyPieceWiseFunc.hh:591-617, class `MyPieceWiseFunc_piece1_hess_0_1`. -/
def MyPieceWiseFunc_piece1_hess_0_1 : ClassText := ⟨"MyPieceWiseFunc_piece1_hess_0_1", chars!"0.0", chars!"0.0", chars!"0", chars!"0"⟩
/-- MyPieceWiseFunc.hh:627-653, class `MyPieceWiseFunc_piece1_hess_1_0`. -/
def MyPieceWiseFunc_piece1_hess_1_0 : ClassText := ⟨"MyPieceWiseFunc_piece1_hess_1_0", chars!"0.0", chars!"0.0", chars!"0", chars!"0"⟩
/-- MyPieceWiseFunc.hh:663-689, class `MyPieceWiseFunc_piece1_hess_1_1`. -/
def MyPieceWiseFunc_piece1_hess_1_1 : ClassText := ⟨"MyPieceWiseFunc_piece1_hess_1_1", chars!"2.0", chars!"2.0", chars!"2", chars!"2"⟩
/-- MyPieceWiseFunc.hh:847-873, class `MyPieceWiseFunc_piece1_cond0`. -/
def MyPieceWiseFunc_piece1_cond0 : ClassText := ⟨"MyPieceWiseFunc_piece1_cond0", chars!" (var[0]*var[0])+(var[1]*var[1]) < 2.5000000000000000e-01", chars!" (var[0]*var[0])+(var[1]*var[1]) < 2.5000000000000000e-01", chars!"x^2+y^2 < 0.25", chars!"x^{2}+y^{2} < 0.25"⟩
/-- MyPieceWiseFunc.hh:883-909, class `MyPieceWiseFunc_piece1_cond1`. -/
def MyPieceWiseFunc_piece1_cond1 : ClassText := ⟨"MyPieceWiseFunc_piece1_cond1", chars!"var[0] >= 0.0", chars!"var[0] >= 0.0", chars!"x >= 0", chars!"x \\geq 0"⟩
/-- MyPieceWiseFunc.hh:919-945, class `MyPieceWiseFunc_piece2_f`. -/
def MyPieceWiseFunc_piece2_f : ClassText := ⟨"MyPieceWiseFunc_piece2_f", chars!" pow( (var[1]*var[1])+(var[0]*var[0]),(1.0/2.0))-2.5000000000000000e-01", chars!" pow( (var[1]*var[1])+(var[0]*var[0]),(1.0/2.0))-2.5000000000000000e-01", chars!"-0.25+sqrt(x^2+y^2)", chars!"-0.25+\\sqrt{x^{2}+y^{2}}"⟩
/-- MyPieceWiseFunc.hh:955-981, class `MyPieceWiseFunc_piece2_grad_0`. -/
def MyPieceWiseFunc_piece2_grad_0 : ClassText := ⟨"MyPieceWiseFunc_piece2_grad_0", chars!"var[0]*pow( (var[1]*var[1])+(var[0]*var[0]),-(1.0/2.0))", chars!"var[0]*pow( (var[1]*var[1])+(var[0]*var[0]),-(1.0/2.0))", chars!"x*(x^2+y^2)^(-1/2)", chars!"\\frac{x}{\\sqrt{y^{2}+x^{2}}}"⟩
/-- MyPieceWiseFunc.hh:991-1017, class `MyPieceWiseFunc_piece2_grad_1`. -/
def MyPieceWiseFunc_piece2_grad_1 : ClassText := ⟨"MyPieceWiseFunc_piece2_grad_1", chars!"var[1]*pow( (var[0]*var[0])+(var[1]*var[1]),-(1.0/2.0))", chars!"var[1]*pow( (var[0]*var[0])+(var[1]*var[1]),-(1.0/2.0))", chars!"(y^2+x^2)^(-1/2)*y", chars!"\\frac{y}{\\sqrt{x^{2}+y^{2}}}"⟩
/-- MyPieceWiseFunc.hh:1027-1053, class `MyPieceWiseFunc_piece2_hess_0_0`. -/
def MyPieceWiseFunc_piece2_hess_0_0 : ClassText := ⟨"MyPieceWiseFunc_piece2_hess_0_0", chars!" pow( (var[1]*var[1])+(var[0]*var[0]),-(1.0/2.0))-pow( (var[1]*var[1])+(var[0]*var[0]),-(3.0/2.0))*(var[0]*var[0])", chars!" pow( (var[1]*var[1])+(var[0]*var[0]),-(1.0/2.0))-pow( (var[1]*var[1])+(var[0]*var[0]),-(3.0/2.0))*(var[0]*var[0])", chars!"-(x^2+y^2)^(-3/2)*x^2+(x^2+y^2)^(-1/2)", chars!"\\frac{1}{\\sqrt{y^{2}+x^{2}}}-\\frac{x^{2}}{{(y^{2}+x^{2})}^{{(\\frac{3}{2})}}}"⟩
/-- MyPieceWiseFunc.hh:1063-1089, class `MyPieceWiseFunc_piece2_hess_0_1`. -/
def MyPieceWiseFunc_piece2_hess_0_1 : ClassText := ⟨"MyPieceWiseFunc_piece2_hess_0_1", chars!"-var[0]*var[1]*pow( (var[0]*var[0])+(var[1]*var[1]),-(3.0/2.0))", chars!"-var[0]*var[1]*pow( (var[0]*var[0])+(var[1]*var[1]),-(3.0/2.0))", chars!"-(y^2+x^2)^(-3/2)*x*y", chars!"-\\frac{ y x}{{(x^{2}+y^{2})}^{{(\\frac{3}{2})}}}"⟩
/-- MyPieceWiseFunc.hh:1099-1125, class `MyPieceWiseFunc_piece2_hess_1_0`. -/
def MyPieceWiseFunc_piece2_hess_1_0 : ClassText := ⟨"MyPieceWiseFunc_piece2_hess_1_0", chars!"-var[0]*var[1]*pow( (var[0]*var[0])+(var[1]*var[1]),-(3.0/2.0))", chars!"-var[0]*var[1]*pow( (var[0]*var[0])+(var[1]*var[1]),-(3.0/2.0))", chars!"-x*y*(x^2+y^2)^(-3/2)", chars!"-\\frac{ y x}{{(x^{2}+y^{2})}^{{(\\frac{3}{2})}}}"⟩
/-- MyPieceWiseFunc.hh:1135-1161, class `MyPieceWiseFunc_piece2_hess_1_1`. -/
def MyPieceWiseFunc_piece2_hess_1_1 : ClassText := ⟨"MyPieceWiseFunc_piece2_hess_1_1", chars!" pow( (var[0]*var[0])+(var[1]*var[1]),-(1.0/2.0))-(var[1]*var[1])*pow( (var[0]*var[0])+(var[1]*var[1]),-(3.0/2.0))", chars!" pow( (var[0]*var[0])+(var[1]*var[1]),-(1.0/2.0))-(var[1]*var[1])*pow( (var[0]*var[0])+(var[1]*var[1]),-(3.0/2.0))", chars!"-y^2*(x^2+y^2)^(-3/2)+(x^2+y^2)^(-1/2)", chars!"\\frac{1}{\\sqrt{y^{2}+x^{2}}}-\\frac{y^{2}}{{(y^{2}+x^{2})}^{{(\\frac{3}{2})}}}"⟩
/-- MyPieceWiseFunc.hh:1319-1345, class `MyPieceWiseFunc_piece2_cond0`. -/
def MyPieceWiseFunc_piece2_cond0 : ClassText := ⟨"MyPieceWiseFunc_piece2_cond0", chars!" (var[0]*var[0])+(var[1]*var[1]) >= 2.5000000000000000e-01", chars!" (var[0]*var[0])+(var[1]*var[1]) >= 2.5000000000000000e-01", chars!"x^2+y^2 >= 0.25", chars!"x^{2}+y^{2} \\geq 0.25"⟩
/-- MyPieceWiseFunc.hh:1355-1381, class `MyPieceWiseFunc_piece2_cond1`. -/
def MyPieceWiseFunc_piece2_cond1 : ClassText := ⟨"MyPieceWiseFunc_piece2_cond1", chars!"var[0] >= 0.0", chars!"var[0] >= 0.0", chars!"x >= 0", chars!"x \\geq 0"⟩

end Verif.Testlib

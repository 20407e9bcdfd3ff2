/-
Maritime identification digits: the allocation of the first three digits of a ship's MMSI to countries.
-/
import Verif.Model.Basic

namespace Nmea.Spec

/-- ITU allocation of maritime identification digits, by ISO 3166 country code. (Where several codes share
the digits, the one that the crate's documentation names is taken.) -/
def allocations : List (Str × List Nat) :=
  [(c! "AD", [202]), (c! "AE", [470, 471]), (c! "AF", [401]), (c! "AG", [304, 305]), (c! "AI", [301]),
   (c! "AL", [201]), (c! "AM", [216]), (c! "AO", [603]), (c! "AR", [701]), (c! "AS", [559]), (c! "AT", [203]),
   (c! "AU", [503]), (c! "AW", [307]), (c! "AZ", [423]), (c! "BA", [478]), (c! "BB", [314]), (c! "BD", [405]),
   (c! "BE", [205]), (c! "BF", [633]), (c! "BG", [207]), (c! "BH", [408]), (c! "BI", [609]), (c! "BJ", [610]),
   (c! "BM", [310]), (c! "BN", [508]), (c! "BO", [720]), (c! "BQ", [306]), (c! "BR", [710]),
   (c! "BS", [308, 309, 311]), (c! "BT", [410]), (c! "BW", [611]), (c! "BY", [206]), (c! "BZ", [312]),
   (c! "CA", [316]), (c! "CC", [523]), (c! "CD", [676]), (c! "CF", [612]), (c! "CG", [615]), (c! "CH", [269]),
   (c! "CI", [619]), (c! "CK", [518]), (c! "CL", [725]), (c! "CM", [613]), (c! "CN", [412, 413, 414]),
   (c! "CO", [730]), (c! "CR", [321]), (c! "CU", [323]), (c! "CV", [617]), (c! "CX", [516]),
   (c! "CY", [209, 210, 212]), (c! "CZ", [270]), (c! "DE", [211, 218]), (c! "DJ", [621]), (c! "DK", [219, 220]),
   (c! "DM", [325]), (c! "DO", [327]), (c! "DZ", [605]), (c! "EC", [735]), (c! "EE", [276]), (c! "EG", [622]),
   (c! "ER", [625]), (c! "ES", [224, 225]), (c! "ET", [624]), (c! "FI", [230]), (c! "FJ", [520]),
   (c! "FK", [740]), (c! "FM", [510]), (c! "FO", [231]), (c! "FR", [226, 227, 228]), (c! "GA", [626]),
   (c! "GB", [232, 233, 234, 235]), (c! "GD", [330]), (c! "GE", [213]), (c! "GF", [745]), (c! "GH", [627]),
   (c! "GI", [236]), (c! "GL", [331]), (c! "GM", [629]), (c! "GN", [632]), (c! "GP", [329]), (c! "GQ", [631]),
   (c! "GR", [237, 239, 240, 241]), (c! "GT", [332]), (c! "GW", [630]), (c! "GY", [750]), (c! "HK", [477]),
   (c! "HN", [334]), (c! "HR", [238]), (c! "HT", [336]), (c! "HU", [243]), (c! "ID", [525]), (c! "IE", [250]),
   (c! "IL", [428]), (c! "IN", [419]), (c! "IQ", [425]), (c! "IR", [422]), (c! "IS", [251]), (c! "IT", [247]),
   (c! "JM", [339]), (c! "JO", [438]), (c! "JP", [431, 432]), (c! "KE", [634]), (c! "KG", [451]),
   (c! "KH", [514, 515]), (c! "KI", [529]), (c! "KM", [616, 620]), (c! "KN", [341]), (c! "KP", [445]),
   (c! "KR", [440, 441]), (c! "KW", [447]), (c! "KY", [319]), (c! "KZ", [436]), (c! "LA", [531]),
   (c! "LB", [450]), (c! "LC", [343]), (c! "LI", [252]), (c! "LK", [417]), (c! "LR", [636, 637]),
   (c! "LS", [644]), (c! "LT", [277]), (c! "LU", [253]), (c! "LV", [275]), (c! "LY", [642]), (c! "MA", [242]),
   (c! "MC", [254]), (c! "MD", [214]), (c! "ME", [262]), (c! "MG", [647]), (c! "MH", [538]), (c! "MK", [274]),
   (c! "ML", [649]), (c! "MM", [506]), (c! "MN", [457]), (c! "MO", [453]), (c! "MP", [536]), (c! "MQ", [347]),
   (c! "MR", [654]), (c! "MS", [348]), (c! "MT", [215, 229, 248, 249, 256]), (c! "MU", [645]), (c! "MV", [455]),
   (c! "MW", [655]), (c! "MX", [345]), (c! "MY", [533]), (c! "MZ", [650]), (c! "NA", [659]), (c! "NC", [540]),
   (c! "NE", [656]), (c! "NG", [657]), (c! "NI", [350]), (c! "NL", [244, 245, 246]), (c! "NO", [257, 258, 259]),
   (c! "NP", [459]), (c! "NR", [544]), (c! "NU", [542]), (c! "NZ", [512]), (c! "OM", [461]),
   (c! "PA", [351, 352, 353, 354, 355, 356, 357, 370, 371, 372, 373, 374]), (c! "PE", [760]), (c! "PF", [546]),
   (c! "PG", [553]), (c! "PH", [548]), (c! "PK", [463]), (c! "PL", [261]), (c! "PM", [361]), (c! "PN", [555]),
   (c! "PR", [358]), (c! "PS", [443]), (c! "PT", [204, 255, 263]), (c! "PW", [511]), (c! "PY", [755]),
   (c! "QA", [466]), (c! "RE", [660]), (c! "RO", [264]), (c! "RS", [279]), (c! "RU", [273]), (c! "RW", [661]),
   (c! "SA", [403]), (c! "SB", [557]), (c! "SC", [664]), (c! "SD", [662]), (c! "SE", [265, 266]),
   (c! "SG", [563, 564, 565, 566]), (c! "SH", [608, 665]), (c! "SI", [278]), (c! "SK", [267]), (c! "SL", [667]),
   (c! "SM", [268]), (c! "SN", [663]), (c! "SO", [666]), (c! "SR", [765]), (c! "SS", [638]), (c! "ST", [668]),
   (c! "SV", [359]), (c! "SY", [468]), (c! "SZ", [669]), (c! "TC", [364]), (c! "TD", [670]),
   (c! "TF", [501, 607, 618, 635]), (c! "TG", [671]), (c! "TH", [567]), (c! "TJ", [472]), (c! "TL", [550]),
   (c! "TM", [434]), (c! "TN", [672]), (c! "TO", [570]), (c! "TR", [271]), (c! "TT", [362]), (c! "TV", [572]),
   (c! "TW", [416]), (c! "TZ", [674, 677]), (c! "UA", [272]), (c! "UG", [675]),
   (c! "US", [303, 338, 366, 367, 368, 369]), (c! "UY", [770]), (c! "UZ", [437]), (c! "VA", [208]),
   (c! "VC", [375, 376, 377]), (c! "VE", [775]), (c! "VG", [378]), (c! "VI", [379]), (c! "VN", [574]),
   (c! "VU", [576, 577]), (c! "WF", [578]), (c! "WS", [561]), (c! "YE", [473, 475]), (c! "ZA", [601]),
   (c! "ZM", [678]), (c! "ZW", [679])]

/-- These three digits are allocated to the country. -/
def Allocated (digits : Nat) (country : Str) : Prop := ∃ r ∈ allocations, r.1 = country ∧ digits ∈ r.2

instance (d c) : Decidable (Allocated d c) := by unfold Allocated; infer_instance

end Nmea.Spec

/-
Model of `VesselStaticData::country` (src/ais/mod.rs:642-943).
-/
import Verif.Model.AisTypes

namespace Nmea

/-- src/ais/mod.rs:647-940: the arms of the `match`, one entry per arm, in source order. -/
def countryTable : List (Nat × Str) :=
  [(201, c! "AL"), (202, c! "AD"), (203, c! "AT"), (204, c! "PT"), (205, c! "BE"), (206, c! "BY"),
   (207, c! "BG"), (208, c! "VA"), (209, c! "CY"), (210, c! "CY"), (211, c! "DE"), (212, c! "CY"),
   (213, c! "GE"), (214, c! "MD"), (215, c! "MT"), (216, c! "AM"), (218, c! "DE"), (219, c! "DK"),
   (220, c! "DK"), (224, c! "ES"), (225, c! "ES"), (226, c! "FR"), (227, c! "FR"), (228, c! "FR"),
   (229, c! "MT"), (230, c! "FI"), (231, c! "FO"), (232, c! "GB"), (233, c! "GB"), (234, c! "GB"),
   (235, c! "GB"), (236, c! "GI"), (237, c! "GR"), (238, c! "HR"), (239, c! "GR"), (240, c! "GR"),
   (241, c! "GR"), (242, c! "MA"), (243, c! "HU"), (244, c! "NL"), (245, c! "NL"), (246, c! "NL"),
   (247, c! "IT"), (248, c! "MT"), (249, c! "MT"), (250, c! "IE"), (251, c! "IS"), (252, c! "LI"),
   (253, c! "LU"), (254, c! "MC"), (255, c! "PT"), (256, c! "MT"), (257, c! "NO"), (258, c! "NO"),
   (259, c! "NO"), (261, c! "PL"), (262, c! "ME"), (263, c! "PT"), (264, c! "RO"), (265, c! "SE"),
   (266, c! "SE"), (267, c! "SK"), (268, c! "SM"), (269, c! "CH"), (270, c! "CZ"), (271, c! "TR"),
   (272, c! "UA"), (273, c! "RU"), (274, c! "MK"), (275, c! "LV"), (276, c! "EE"), (277, c! "LT"),
   (278, c! "SI"), (279, c! "RS"), (301, c! "AI"), (303, c! "US"), (304, c! "AG"), (305, c! "AG"),
   (306, c! "BQ"), (307, c! "AW"), (308, c! "BS"), (309, c! "BS"), (310, c! "BM"), (311, c! "BS"),
   (312, c! "BZ"), (314, c! "BB"), (316, c! "CA"), (319, c! "KY"), (321, c! "CR"), (323, c! "CU"),
   (325, c! "DM"), (327, c! "DO"), (329, c! "GP"), (330, c! "GD"), (331, c! "GL"), (332, c! "GT"),
   (334, c! "HN"), (336, c! "HT"), (338, c! "US"), (339, c! "JM"), (341, c! "KN"), (343, c! "LC"),
   (345, c! "MX"), (347, c! "MQ"), (348, c! "MS"), (350, c! "NI"), (351, c! "PA"), (352, c! "PA"),
   (353, c! "PA"), (354, c! "PA"), (355, c! "PA"), (356, c! "PA"), (357, c! "PA"), (358, c! "PR"),
   (359, c! "SV"), (361, c! "PM"), (362, c! "TT"), (364, c! "TC"), (366, c! "US"), (367, c! "US"),
   (368, c! "US"), (369, c! "US"), (370, c! "PA"), (371, c! "PA"), (372, c! "PA"), (373, c! "PA"),
   (374, c! "PA"), (375, c! "VC"), (376, c! "VC"), (377, c! "VC"), (378, c! "VG"), (379, c! "VI"),
   (401, c! "AF"), (403, c! "SA"), (405, c! "BD"), (408, c! "BH"), (410, c! "BT"), (412, c! "CN"),
   (413, c! "CN"), (414, c! "CN"), (416, c! "TW"), (417, c! "LK"), (419, c! "IN"), (422, c! "IR"),
   (423, c! "AZ"), (425, c! "IQ"), (428, c! "IL"), (431, c! "JP"), (432, c! "JP"), (434, c! "TM"),
   (436, c! "KZ"), (437, c! "UZ"), (438, c! "JO"), (440, c! "KR"), (441, c! "KR"), (443, c! "PS"),
   (445, c! "KR"), (447, c! "KW"), (450, c! "LB"), (451, c! "KG"), (453, c! "MO"), (455, c! "MV"),
   (457, c! "MN"), (459, c! "NP"), (461, c! "OM"), (463, c! "PK"), (466, c! "QA"), (468, c! "SY"),
   (470, c! "AE"), (471, c! "AE"), (472, c! "TJ"), (473, c! "YE"), (475, c! "YE"), (477, c! "HK"),
   (478, c! "BA"), (501, c! "TF"), (503, c! "AU"), (506, c! "MM"), (508, c! "BN"), (510, c! "FM"),
   (511, c! "PW"), (512, c! "NZ"), (514, c! "KH"), (515, c! "KH"), (516, c! "CX"), (518, c! "CK"),
   (520, c! "FJ"), (523, c! "CC"), (525, c! "ID"), (529, c! "KI"), (531, c! "LA"), (533, c! "MY"),
   (536, c! "MP"), (538, c! "MH"), (540, c! "NC"), (542, c! "NU"), (544, c! "NR"), (546, c! "PF"),
   (548, c! "PH"), (550, c! "TL"), (553, c! "PG"), (555, c! "PN"), (557, c! "SB"), (559, c! "AS"),
   (561, c! "WS"), (563, c! "SG"), (564, c! "SG"), (565, c! "SG"), (566, c! "SG"), (567, c! "TH"),
   (570, c! "TO"), (572, c! "TV"), (574, c! "VN"), (576, c! "VU"), (577, c! "VU"), (578, c! "WF"),
   (601, c! "ZA"), (603, c! "AO"), (605, c! "DZ"), (607, c! "TF"), (608, c! "SH"), (609, c! "BI"),
   (610, c! "BJ"), (611, c! "BW"), (612, c! "CF"), (613, c! "CM"), (615, c! "CG"), (616, c! "KM"),
   (617, c! "CV"), (618, c! "TF"), (619, c! "CI"), (620, c! "KM"), (621, c! "DJ"), (622, c! "EG"),
   (624, c! "ET"), (625, c! "ER"), (626, c! "GA"), (627, c! "GH"), (629, c! "GM"), (630, c! "GW"),
   (631, c! "GQ"), (632, c! "GN"), (633, c! "BF"), (634, c! "KE"), (635, c! "TF"), (636, c! "LR"),
   (637, c! "LR"), (638, c! "SS"), (642, c! "LY"), (644, c! "LS"), (645, c! "MU"), (647, c! "MG"),
   (649, c! "ML"), (650, c! "MZ"), (654, c! "MR"), (655, c! "MW"), (656, c! "NE"), (657, c! "NG"),
   (659, c! "NA"), (660, c! "TF"), (661, c! "RW"), (662, c! "SD"), (663, c! "SN"), (664, c! "SC"),
   (665, c! "SH"), (666, c! "SO"), (667, c! "SL"), (668, c! "ST"), (669, c! "SZ"), (670, c! "TD"),
   (671, c! "TG"), (672, c! "TN"), (674, c! "TZ"), (675, c! "UG"), (676, c! "CG"), (677, c! "TZ"),
   (678, c! "ZM"), (679, c! "ZW"), (701, c! "AR"), (710, c! "BR"), (720, c! "BO"), (725, c! "CL"),
   (730, c! "CO"), (735, c! "EC"), (740, c! "FK"), (745, c! "GF"), (750, c! "GY"), (755, c! "PY"),
   (760, c! "PE"), (765, c! "SR"), (770, c! "UY"), (775, c! "VE")]

/-- src/ais/mod.rs:644-942 `country`: first matching arm for `mmsi / 1000000`. -/
def VesselStaticData.country (v : VesselStaticData) : Option Str :=
  (countryTable.find? (fun r => r.1 = v.mmsi / 1000000)).map (·.2)

end Nmea

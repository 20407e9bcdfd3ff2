/-
Model of mid-to-iso3166.py, the script that generated the table in `VesselStaticData::country`.
The texts are handled line by line from the start: no pattern of the script matches a newline, so that substituting in the
whole text and splitting it afterwards is the same. `\s` and `\d` are modelled for ASCII (the tables have no other blanks and
digits).
-/
import Verif.Model.Country

namespace Nmea.MidScript

set_option maxRecDepth 20000 in
/-- mid-to-iso3166.py:27-320: the lines of the table of maritime identification digits `MID`. -/
def midLines : List Str :=
  [c! "201\tAlbania (Republic of)",
   c! "202\tAndorra (Principality of)",
   c! "203\tAustria",
   c! "204\tPortugal - Azores",
   c! "205\tBelgium",
   c! "206\tBelarus (Republic of)",
   c! "207\tBulgaria (Republic of)",
   c! "208\tVatican City State",
   c! "209\tCyprus (Republic of)",
   c! "210\tCyprus (Republic of)",
   c! "211\tGermany (Federal Republic of)",
   c! "212\tCyprus (Republic of)",
   c! "213\tGeorgia",
   c! "214\tMoldova (Republic of)",
   c! "215\tMalta",
   c! "216\tArmenia (Republic of)",
   c! "218\tGermany (Federal Republic of)",
   c! "219\tDenmark",
   c! "220\tDenmark",
   c! "224\tSpain",
   c! "225\tSpain",
   c! "226\tFrance",
   c! "227\tFrance",
   c! "228\tFrance",
   c! "229\tMalta",
   c! "230\tFinland",
   c! "231\tDenmark - Faroe Islands",
   c! "232\tUnited Kingdom of Great Britain and Northern Ireland",
   c! "233\tUnited Kingdom of Great Britain and Northern Ireland",
   c! "234\tUnited Kingdom of Great Britain and Northern Ireland",
   c! "235\tUnited Kingdom of Great Britain and Northern Ireland",
   c! "236\tUnited Kingdom of Great Britain and Northern Ireland - Gibraltar",
   c! "237\tGreece",
   c! "238\tCroatia (Republic of)",
   c! "239\tGreece",
   c! "240\tGreece",
   c! "241\tGreece",
   c! "242\tMorocco (Kingdom of)",
   c! "243\tHungary",
   c! "244\tNetherlands (Kingdom of the)",
   c! "245\tNetherlands (Kingdom of the)",
   c! "246\tNetherlands (Kingdom of the)",
   c! "247\tItaly",
   c! "248\tMalta",
   c! "249\tMalta",
   c! "250\tIreland",
   c! "251\tIceland",
   c! "252\tLiechtenstein (Principality of)",
   c! "253\tLuxembourg",
   c! "254\tMonaco (Principality of)",
   c! "255\tPortugal - Madeira",
   c! "256\tMalta",
   c! "257\tNorway",
   c! "258\tNorway",
   c! "259\tNorway",
   c! "261\tPoland (Republic of)",
   c! "262\tMontenegro",
   c! "263\tPortugal",
   c! "264\tRomania",
   c! "265\tSweden",
   c! "266\tSweden",
   c! "267\tSlovak Republic",
   c! "268\tSan Marino (Republic of)",
   c! "269\tSwitzerland (Confederation of)",
   c! "270\tCzech Republic",
   c! "271\tTurkey",
   c! "272\tUkraine",
   c! "273\tRussian Federation",
   c! "274\tNorth Macedonia (Republic of)",
   c! "275\tLatvia (Republic of)",
   c! "276\tEstonia (Republic of)",
   c! "277\tLithuania (Republic of)",
   c! "278\tSlovenia (Republic of)",
   c! "279\tSerbia (Republic of)",
   c! "301\tUnited Kingdom of Great Britain and Northern Ireland - Anguilla",
   c! "303\tUnited States of America - Alaska (State of)",
   c! "304\tAntigua and Barbuda",
   c! "305\tAntigua and Barbuda",
   c! "306\tNetherlands (Kingdom of the) - Bonaire, Sint Eustatius and Saba",
   c! "306\tNetherlands (Kingdom of the) - Curaçao",
   c! "306\tNetherlands (Kingdom of the) - Sint Maarten (Dutch part)",
   c! "307\tNetherlands (Kingdom of the) - Aruba",
   c! "308\tBahamas (Commonwealth of the)",
   c! "309\tBahamas (Commonwealth of the)",
   c! "310\tUnited Kingdom of Great Britain and Northern Ireland - Bermuda",
   c! "311\tBahamas (Commonwealth of the)",
   c! "312\tBelize",
   c! "314\tBarbados",
   c! "316\tCanada",
   c! "319\tUnited Kingdom of Great Britain and Northern Ireland - Cayman Islands",
   c! "321\tCosta Rica",
   c! "323\tCuba",
   c! "325\tDominica (Commonwealth of)",
   c! "327\tDominican Republic",
   c! "329\tFrance - Guadeloupe (French Department of)",
   c! "330\tGrenada",
   c! "331\tDenmark - Greenland",
   c! "332\tGuatemala (Republic of)",
   c! "334\tHonduras (Republic of)",
   c! "336\tHaiti (Republic of)",
   c! "338\tUnited States of America",
   c! "339\tJamaica",
   c! "341\tSaint Kitts and Nevis (Federation of)",
   c! "343\tSaint Lucia",
   c! "345\tMexico",
   c! "347\tFrance - Martinique (French Department of)",
   c! "348\tUnited Kingdom of Great Britain and Northern Ireland - Montserrat",
   c! "350\tNicaragua",
   c! "351\tPanama (Republic of)",
   c! "352\tPanama (Republic of)",
   c! "353\tPanama (Republic of)",
   c! "354\tPanama (Republic of)",
   c! "355\tPanama (Republic of)",
   c! "356\tPanama (Republic of)",
   c! "357\tPanama (Republic of)",
   c! "358\tUnited States of America - Puerto Rico",
   c! "359\tEl Salvador (Republic of)",
   c! "361\tFrance - Saint Pierre and Miquelon (Territorial Collectivity of)",
   c! "362\tTrinidad and Tobago",
   c! "364\tUnited Kingdom of Great Britain and Northern Ireland - Turks and Caicos Islands",
   c! "366\tUnited States of America",
   c! "367\tUnited States of America",
   c! "368\tUnited States of America",
   c! "369\tUnited States of America",
   c! "370\tPanama (Republic of)",
   c! "371\tPanama (Republic of)",
   c! "372\tPanama (Republic of)",
   c! "373\tPanama (Republic of)",
   c! "374\tPanama (Republic of)",
   c! "375\tSaint Vincent and the Grenadines",
   c! "376\tSaint Vincent and the Grenadines",
   c! "377\tSaint Vincent and the Grenadines",
   c! "378\tUnited Kingdom of Great Britain and Northern Ireland - British Virgin Islands",
   c! "379\tUnited States of America - United States Virgin Islands",
   c! "401\tAfghanistan",
   c! "403\tSaudi Arabia (Kingdom of)",
   c! "405\tBangladesh (People's Republic of)",
   c! "408\tBahrain (Kingdom of)",
   c! "410\tBhutan (Kingdom of)",
   c! "412\tChina (People's Republic of)",
   c! "413\tChina (People's Republic of)",
   c! "414\tChina (People's Republic of)",
   c! "416\tChina (People's Republic of) - Taiwan (Province of China)",
   c! "417\tSri Lanka (Democratic Socialist Republic of)",
   c! "419\tIndia (Republic of)",
   c! "422\tIran (Islamic Republic of)",
   c! "423\tAzerbaijan (Republic of)",
   c! "425\tIraq (Republic of)",
   c! "428\tIsrael (State of)",
   c! "431\tJapan",
   c! "432\tJapan",
   c! "434\tTurkmenistan",
   c! "436\tKazakhstan (Republic of)",
   c! "437\tUzbekistan (Republic of)",
   c! "438\tJordan (Hashemite Kingdom of)",
   c! "440\tKorea (Republic of)",
   c! "441\tKorea (Republic of)",
   c! "443\tState of Palestine (In accordance with Resolution 99 Rev. Dubai, 2018)",
   c! "445\tDemocratic People's Republic of Korea",
   c! "447\tKuwait (State of)",
   c! "450\tLebanon",
   c! "451\tKyrgyz Republic",
   c! "453\tChina (People's Republic of) - Macao (Special Administrative Region of China)",
   c! "455\tMaldives (Republic of)",
   c! "457\tMongolia",
   c! "459\tNepal (Federal Democratic Republic of)",
   c! "461\tOman (Sultanate of)",
   c! "463\tPakistan (Islamic Republic of)",
   c! "466\tQatar (State of)",
   c! "468\tSyrian Arab Republic",
   c! "470\tUnited Arab Emirates",
   c! "471\tUnited Arab Emirates",
   c! "472\tTajikistan (Republic of)",
   c! "473\tYemen (Republic of)",
   c! "475\tYemen (Republic of)",
   c! "477\tChina (People's Republic of) - Hong Kong (Special Administrative Region of China)",
   c! "478\tBosnia and Herzegovina",
   c! "501\tFrance - Adelie Land",
   c! "503\tAustralia",
   c! "506\tMyanmar (Union of)",
   c! "508\tBrunei Darussalam",
   c! "510\tMicronesia (Federated States of)",
   c! "511\tPalau (Republic of)",
   c! "512\tNew Zealand",
   c! "514\tCambodia (Kingdom of)",
   c! "515\tCambodia (Kingdom of)",
   c! "516\tAustralia - Christmas Island (Indian Ocean)",
   c! "518\tNew Zealand - Cook Islands",
   c! "520\tFiji (Republic of)",
   c! "523\tAustralia - Cocos (Keeling) Islands",
   c! "525\tIndonesia (Republic of)",
   c! "529\tKiribati (Republic of)",
   c! "531\tLao People's Democratic Republic",
   c! "533\tMalaysia",
   c! "536\tUnited States of America - Northern Mariana Islands (Commonwealth of the)",
   c! "538\tMarshall Islands (Republic of the)",
   c! "540\tFrance - New Caledonia",
   c! "542\tNew Zealand - Niue",
   c! "544\tNauru (Republic of)",
   c! "546\tFrance - French Polynesia",
   c! "548\tPhilippines (Republic of the)",
   c! "550\tTimor-Leste (Democratic Republic of)",
   c! "553\tPapua New Guinea",
   c! "555\tUnited Kingdom of Great Britain and Northern Ireland - Pitcairn Island",
   c! "557\tSolomon Islands",
   c! "559\tUnited States of America - American Samoa",
   c! "561\tSamoa (Independent State of)",
   c! "563\tSingapore (Republic of)",
   c! "564\tSingapore (Republic of)",
   c! "565\tSingapore (Republic of)",
   c! "566\tSingapore (Republic of)",
   c! "567\tThailand",
   c! "570\tTonga (Kingdom of)",
   c! "572\tTuvalu",
   c! "574\tViet Nam (Socialist Republic of)",
   c! "576\tVanuatu (Republic of)",
   c! "577\tVanuatu (Republic of)",
   c! "578\tFrance - Wallis and Futuna Islands",
   c! "601\tSouth Africa (Republic of)",
   c! "603\tAngola (Republic of)",
   c! "605\tAlgeria (People's Democratic Republic of)",
   c! "607\tFrance - Saint Paul and Amsterdam Islands",
   c! "608\tUnited Kingdom of Great Britain and Northern Ireland - Ascension Island",
   c! "609\tBurundi (Republic of)",
   c! "610\tBenin (Republic of)",
   c! "611\tBotswana (Republic of)",
   c! "612\tCentral African Republic",
   c! "613\tCameroon (Republic of)",
   c! "615\tCongo (Republic of the)",
   c! "616\tComoros (Union of the)",
   c! "617\tCabo Verde (Republic of)",
   c! "618\tFrance - Crozet Archipelago",
   c! "619\tCôte d'Ivoire (Republic of)",
   c! "620\tComoros (Union of the)",
   c! "621\tDjibouti (Republic of)",
   c! "622\tEgypt (Arab Republic of)",
   c! "624\tEthiopia (Federal Democratic Republic of)",
   c! "625\tEritrea",
   c! "626\tGabonese Republic",
   c! "627\tGhana",
   c! "629\tGambia (Republic of the)",
   c! "630\tGuinea-Bissau (Republic of)",
   c! "631\tEquatorial Guinea (Republic of)",
   c! "632\tGuinea (Republic of)",
   c! "633\tBurkina Faso",
   c! "634\tKenya (Republic of)",
   c! "635\tFrance - Kerguelen Islands",
   c! "636\tLiberia (Republic of)",
   c! "637\tLiberia (Republic of)",
   c! "638\tSouth Sudan (Republic of)",
   c! "642\tLibya (State of)",
   c! "644\tLesotho (Kingdom of)",
   c! "645\tMauritius (Republic of)",
   c! "647\tMadagascar (Republic of)",
   c! "649\tMali (Republic of)",
   c! "650\tMozambique (Republic of)",
   c! "654\tMauritania (Islamic Republic of)",
   c! "655\tMalawi",
   c! "656\tNiger (Republic of the)",
   c! "657\tNigeria (Federal Republic of)",
   c! "659\tNamibia (Republic of)",
   c! "660\tFrance - Reunion (French Department of)",
   c! "661\tRwanda (Republic of)",
   c! "662\tSudan (Republic of the)",
   c! "663\tSenegal (Republic of)",
   c! "664\tSeychelles (Republic of)",
   c! "665\tUnited Kingdom of Great Britain and Northern Ireland - Saint Helena",
   c! "666\tSomalia (Federal Republic of)",
   c! "667\tSierra Leone",
   c! "668\tSao Tome and Principe (Democratic Republic of)",
   c! "669\tEswatini (Kingdom of)",
   c! "670\tChad (Republic of)",
   c! "671\tTogolese Republic",
   c! "672\tTunisia",
   c! "674\tTanzania (United Republic of)",
   c! "675\tUganda (Republic of)",
   c! "676\tDemocratic Republic of the Congo",
   c! "677\tTanzania (United Republic of)",
   c! "678\tZambia (Republic of)",
   c! "679\tZimbabwe (Republic of)",
   c! "701\tArgentine Republic",
   c! "710\tBrazil (Federative Republic of)",
   c! "720\tBolivia (Plurinational State of)",
   c! "725\tChile",
   c! "730\tColombia (Republic of)",
   c! "735\tEcuador",
   c! "740\tUnited Kingdom of Great Britain and Northern Ireland - Falkland Islands (Malvinas)",
   c! "745\tFrance - Guiana (French Department of)",
   c! "750\tGuyana",
   c! "755\tParaguay (Republic of)",
   c! "760\tPeru",
   c! "765\tSuriname (Republic of)",
   c! "770\tUruguay (Eastern Republic of)",
   c! "775\tVenezuela (Bolivarian Republic of)"]

set_option maxRecDepth 20000 in
/-- mid-to-iso3166.py:325-573: the lines of the table of country codes `ISO_3166`. -/
def isoLines : List Str :=
  [c! "Afghanistan \tAF \tAFG \t004",
   c! "Albania \tAL \tALB \t008",
   c! "Algeria \tDZ \tDZA \t012",
   c! "American Samoa \tAS \tASM \t016",
   c! "Andorra \tAD \tAND \t020",
   c! "Angola \tAO \tAGO \t024",
   c! "Anguilla \tAI \tAIA \t660",
   c! "Antarctica \tAQ \tATA \t010",
   c! "Antigua and Barbuda \tAG \tATG \t028",
   c! "Argentina \tAR \tARG \t032",
   c! "Armenia \tAM \tARM \t051",
   c! "Aruba \tAW \tABW \t533",
   c! "Australia \tAU \tAUS \t036",
   c! "Austria \tAT \tAUT \t040",
   c! "Azerbaijan \tAZ \tAZE \t031",
   c! "Bahamas (the) \tBS \tBHS \t044",
   c! "Bahrain \tBH \tBHR \t048",
   c! "Bangladesh \tBD \tBGD \t050",
   c! "Barbados \tBB \tBRB \t052",
   c! "Belarus \tBY \tBLR \t112",
   c! "Belgium \tBE \tBEL \t056",
   c! "Belize \tBZ \tBLZ \t084",
   c! "Benin \tBJ \tBEN \t204",
   c! "Bermuda \tBM \tBMU \t060",
   c! "Bhutan \tBT \tBTN \t064",
   c! "Bolivia (Plurinational State of) \tBO \tBOL \t068",
   c! "Bonaire, Sint Eustatius and Saba \tBQ \tBES \t535",
   c! "Bosnia and Herzegovina \tBA \tBIH \t070",
   c! "Botswana \tBW \tBWA \t072",
   c! "Bouvet Island \tBV \tBVT \t074",
   c! "Brazil \tBR \tBRA \t076",
   c! "British Indian Ocean Territory (the) \tIO \tIOT \t086",
   c! "Brunei Darussalam \tBN \tBRN \t096",
   c! "Bulgaria \tBG \tBGR \t100",
   c! "Burkina Faso \tBF \tBFA \t854",
   c! "Burundi \tBI \tBDI \t108",
   c! "Cabo Verde \tCV \tCPV \t132",
   c! "Cambodia \tKH \tKHM \t116",
   c! "Cameroon \tCM \tCMR \t120",
   c! "Canada \tCA \tCAN \t124",
   c! "Cayman Islands (the) \tKY \tCYM \t136",
   c! "Central African Republic (the) \tCF \tCAF \t140",
   c! "Chad \tTD \tTCD \t148",
   c! "Chile \tCL \tCHL \t152",
   c! "China \tCN \tCHN \t156",
   c! "Christmas Island \tCX \tCXR \t162",
   c! "Cocos (Keeling) Islands (the) \tCC \tCCK \t166",
   c! "Colombia \tCO \tCOL \t170",
   c! "Comoros (the) \tKM \tCOM \t174",
   c! "Congo (the Democratic Republic of the) \tCD \tCOD \t180",
   c! "Congo (the) \tCG \tCOG \t178",
   c! "Cook Islands (the) \tCK \tCOK \t184",
   c! "Costa Rica \tCR \tCRI \t188",
   c! "Croatia \tHR \tHRV \t191",
   c! "Cuba \tCU \tCUB \t192",
   c! "Curaçao \tCW \tCUW \t531",
   c! "Cyprus \tCY \tCYP \t196",
   c! "Czechia \tCZ \tCZE \t203",
   c! "Côte d'Ivoire \tCI \tCIV \t384",
   c! "Denmark \tDK \tDNK \t208",
   c! "Djibouti \tDJ \tDJI \t262",
   c! "Dominica \tDM \tDMA \t212",
   c! "Dominican Republic (the) \tDO \tDOM \t214",
   c! "Ecuador \tEC \tECU \t218",
   c! "Egypt \tEG \tEGY \t818",
   c! "El Salvador \tSV \tSLV \t222",
   c! "Equatorial Guinea \tGQ \tGNQ \t226",
   c! "Eritrea \tER \tERI \t232",
   c! "Estonia \tEE \tEST \t233",
   c! "Eswatini \tSZ \tSWZ \t748",
   c! "Ethiopia \tET \tETH \t231",
   c! "Falkland Islands (the) [Malvinas] \tFK \tFLK \t238",
   c! "Faroe Islands (the) \tFO \tFRO \t234",
   c! "Fiji \tFJ \tFJI \t242",
   c! "Finland \tFI \tFIN \t246",
   c! "France \tFR \tFRA \t250",
   c! "French Guiana \tGF \tGUF \t254",
   c! "French Polynesia \tPF \tPYF \t258",
   c! "French Southern Territories (the) \tTF \tATF \t260",
   c! "Gabon \tGA \tGAB \t266",
   c! "Gambia (the) \tGM \tGMB \t270",
   c! "Georgia \tGE \tGEO \t268",
   c! "Germany \tDE \tDEU \t276",
   c! "Ghana \tGH \tGHA \t288",
   c! "Gibraltar \tGI \tGIB \t292",
   c! "Greece \tGR \tGRC \t300",
   c! "Greenland \tGL \tGRL \t304",
   c! "Grenada \tGD \tGRD \t308",
   c! "Guadeloupe \tGP \tGLP \t312",
   c! "Guam \tGU \tGUM \t316",
   c! "Guatemala \tGT \tGTM \t320",
   c! "Guernsey \tGG \tGGY \t831",
   c! "Guinea \tGN \tGIN \t324",
   c! "Guinea-Bissau \tGW \tGNB \t624",
   c! "Guyana \tGY \tGUY \t328",
   c! "Haiti \tHT \tHTI \t332",
   c! "Heard Island and McDonald Islands \tHM \tHMD \t334",
   c! "Holy See (the) \tVA \tVAT \t336",
   c! "Honduras \tHN \tHND \t340",
   c! "Hong Kong \tHK \tHKG \t344",
   c! "Hungary \tHU \tHUN \t348",
   c! "Iceland \tIS \tISL \t352",
   c! "India \tIN \tIND \t356",
   c! "Indonesia \tID \tIDN \t360",
   c! "Iran (Islamic Republic of) \tIR \tIRN \t364",
   c! "Iraq \tIQ \tIRQ \t368",
   c! "Ireland \tIE \tIRL \t372",
   c! "Isle of Man \tIM \tIMN \t833",
   c! "Israel \tIL \tISR \t376",
   c! "Italy \tIT \tITA \t380",
   c! "Jamaica \tJM \tJAM \t388",
   c! "Japan \tJP \tJPN \t392",
   c! "Jersey \tJE \tJEY \t832",
   c! "Jordan \tJO \tJOR \t400",
   c! "Kazakhstan \tKZ \tKAZ \t398",
   c! "Kenya \tKE \tKEN \t404",
   c! "Kiribati \tKI \tKIR \t296",
   c! "Korea (the Democratic People's Republic of) \tKP \tPRK \t408",
   c! "Korea (the Republic of) \tKR \tKOR \t410",
   c! "Kuwait \tKW \tKWT \t414",
   c! "Kyrgyzstan \tKG \tKGZ \t417",
   c! "Lao People's Democratic Republic (the) \tLA \tLAO \t418",
   c! "Latvia \tLV \tLVA \t428",
   c! "Lebanon \tLB \tLBN \t422",
   c! "Lesotho \tLS \tLSO \t426",
   c! "Liberia \tLR \tLBR \t430",
   c! "Libya \tLY \tLBY \t434",
   c! "Liechtenstein \tLI \tLIE \t438",
   c! "Lithuania \tLT \tLTU \t440",
   c! "Luxembourg \tLU \tLUX \t442",
   c! "Macao \tMO \tMAC \t446",
   c! "Madagascar \tMG \tMDG \t450",
   c! "Malawi \tMW \tMWI \t454",
   c! "Malaysia \tMY \tMYS \t458",
   c! "Maldives \tMV \tMDV \t462",
   c! "Mali \tML \tMLI \t466",
   c! "Malta \tMT \tMLT \t470",
   c! "Marshall Islands (the) \tMH \tMHL \t584",
   c! "Martinique \tMQ \tMTQ \t474",
   c! "Mauritania \tMR \tMRT \t478",
   c! "Mauritius \tMU \tMUS \t480",
   c! "Mayotte \tYT \tMYT \t175",
   c! "Mexico \tMX \tMEX \t484",
   c! "Micronesia (Federated States of) \tFM \tFSM \t583",
   c! "Moldova (the Republic of) \tMD \tMDA \t498",
   c! "Monaco \tMC \tMCO \t492",
   c! "Mongolia \tMN \tMNG \t496",
   c! "Montenegro \tME \tMNE \t499",
   c! "Montserrat \tMS \tMSR \t500",
   c! "Morocco \tMA \tMAR \t504",
   c! "Mozambique \tMZ \tMOZ \t508",
   c! "Myanmar \tMM \tMMR \t104",
   c! "Namibia \tNA \tNAM \t516",
   c! "Nauru \tNR \tNRU \t520",
   c! "Nepal \tNP \tNPL \t524",
   c! "Netherlands (the) \tNL \tNLD \t528",
   c! "New Caledonia \tNC \tNCL \t540",
   c! "New Zealand \tNZ \tNZL \t554",
   c! "Nicaragua \tNI \tNIC \t558",
   c! "Niger (the) \tNE \tNER \t562",
   c! "Nigeria \tNG \tNGA \t566",
   c! "Niue \tNU \tNIU \t570",
   c! "Norfolk Island \tNF \tNFK \t574",
   c! "Northern Mariana Islands (the) \tMP \tMNP \t580",
   c! "Norway \tNO \tNOR \t578",
   c! "Oman \tOM \tOMN \t512",
   c! "Pakistan \tPK \tPAK \t586",
   c! "Palau \tPW \tPLW \t585",
   c! "Palestine, State of \tPS \tPSE \t275",
   c! "Panama \tPA \tPAN \t591",
   c! "Papua New Guinea \tPG \tPNG \t598",
   c! "Paraguay \tPY \tPRY \t600",
   c! "Peru \tPE \tPER \t604",
   c! "Philippines (the) \tPH \tPHL \t608",
   c! "Pitcairn \tPN \tPCN \t612",
   c! "Poland \tPL \tPOL \t616",
   c! "Portugal \tPT \tPRT \t620",
   c! "Puerto Rico \tPR \tPRI \t630",
   c! "Qatar \tQA \tQAT \t634",
   c! "Republic of North Macedonia \tMK \tMKD \t807",
   c! "Romania \tRO \tROU \t642",
   c! "Russian Federation (the) \tRU \tRUS \t643",
   c! "Rwanda \tRW \tRWA \t646",
   c! "Réunion \tRE \tREU \t638",
   c! "Saint Barthélemy \tBL \tBLM \t652",
   c! "Saint Helena, Ascension and Tristan da Cunha \tSH \tSHN \t654",
   c! "Saint Kitts and Nevis \tKN \tKNA \t659",
   c! "Saint Lucia \tLC \tLCA \t662",
   c! "Saint Martin (French part) \tMF \tMAF \t663",
   c! "Saint Pierre and Miquelon \tPM \tSPM \t666",
   c! "Saint Vincent and the Grenadines \tVC \tVCT \t670",
   c! "Samoa \tWS \tWSM \t882",
   c! "San Marino \tSM \tSMR \t674",
   c! "Sao Tome and Principe \tST \tSTP \t678",
   c! "Saudi Arabia \tSA \tSAU \t682",
   c! "Senegal \tSN \tSEN \t686",
   c! "Serbia \tRS \tSRB \t688",
   c! "Seychelles \tSC \tSYC \t690",
   c! "Sierra Leone \tSL \tSLE \t694",
   c! "Singapore \tSG \tSGP \t702",
   c! "Sint Maarten (Dutch part) \tSX \tSXM \t534",
   c! "Slovakia \tSK \tSVK \t703",
   c! "Slovenia \tSI \tSVN \t705",
   c! "Solomon Islands \tSB \tSLB \t090",
   c! "Somalia \tSO \tSOM \t706",
   c! "South Africa \tZA \tZAF \t710",
   c! "South Georgia and the South Sandwich Islands \tGS \tSGS \t239",
   c! "South Sudan \tSS \tSSD \t728",
   c! "Spain \tES \tESP \t724",
   c! "Sri Lanka \tLK \tLKA \t144",
   c! "Sudan (the) \tSD \tSDN \t729",
   c! "Suriname \tSR \tSUR \t740",
   c! "Svalbard and Jan Mayen \tSJ \tSJM \t744",
   c! "Sweden \tSE \tSWE \t752",
   c! "Switzerland \tCH \tCHE \t756",
   c! "Syrian Arab Republic \tSY \tSYR \t760",
   c! "Taiwan (Province of China) \tTW \tTWN \t158",
   c! "Tajikistan \tTJ \tTJK \t762",
   c! "Tanzania, United Republic of \tTZ \tTZA \t834",
   c! "Thailand \tTH \tTHA \t764",
   c! "Timor-Leste \tTL \tTLS \t626",
   c! "Togo \tTG \tTGO \t768",
   c! "Tokelau \tTK \tTKL \t772",
   c! "Tonga \tTO \tTON \t776",
   c! "Trinidad and Tobago \tTT \tTTO \t780",
   c! "Tunisia \tTN \tTUN \t788",
   c! "Turkey \tTR \tTUR \t792",
   c! "Turkmenistan \tTM \tTKM \t795",
   c! "Turks and Caicos Islands (the) \tTC \tTCA \t796",
   c! "Tuvalu \tTV \tTUV \t798",
   c! "Uganda \tUG \tUGA \t800",
   c! "Ukraine \tUA \tUKR \t804",
   c! "United Arab Emirates (the) \tAE \tARE \t784",
   c! "United Kingdom of Great Britain and Northern Ireland (the) \tGB \tGBR \t826",
   c! "United States Minor Outlying Islands (the) \tUM \tUMI \t581",
   c! "United States of America (the) \tUS \tUSA \t840",
   c! "Uruguay \tUY \tURY \t858",
   c! "Uzbekistan \tUZ \tUZB \t860",
   c! "Vanuatu \tVU \tVUT \t548",
   c! "Venezuela (Bolivarian Republic of) \tVE \tVEN \t862",
   c! "Viet Nam \tVN \tVNM \t704",
   c! "Virgin Islands (British) \tVG \tVGB \t092",
   c! "Virgin Islands (U.S.) \tVI \tVIR \t850",
   c! "Wallis and Futuna \tWF \tWLF \t876",
   c! "Western Sahara \tEH \tESH \t732",
   c! "Yemen \tYE \tYEM \t887",
   c! "Zambia \tZM \tZMB \t894",
   c! "Zimbabwe \tZW \tZWE \t716",
   c! "Åland Islands \tAX \tALA \t248"]

set_option maxRecDepth 20000 in
/-- src/ais/mod.rs:647-940: the lines of the `match` in `country` between the comment "Mapping generated with
mid-to-iso3166.py" and the last arm `_ => { None }`, as text. -/
def countrySource : List Str :=
  [c! "            201 => Some(\"AL\"), // Albania",
   c! "            202 => Some(\"AD\"), // Andorra",
   c! "            203 => Some(\"AT\"), // Austria",
   c! "            204 => Some(\"PT\"), // Portugal",
   c! "            205 => Some(\"BE\"), // Belgium",
   c! "            206 => Some(\"BY\"), // Belarus",
   c! "            207 => Some(\"BG\"), // Bulgaria",
   c! "            208 => Some(\"VA\"), // Vatican City State",
   c! "            209 => Some(\"CY\"), // Cyprus",
   c! "            210 => Some(\"CY\"), // Cyprus",
   c! "            211 => Some(\"DE\"), // Germany",
   c! "            212 => Some(\"CY\"), // Cyprus",
   c! "            213 => Some(\"GE\"), // Georgia",
   c! "            214 => Some(\"MD\"), // Moldova",
   c! "            215 => Some(\"MT\"), // Malta",
   c! "            216 => Some(\"AM\"), // Armenia",
   c! "            218 => Some(\"DE\"), // Germany",
   c! "            219 => Some(\"DK\"), // Denmark",
   c! "            220 => Some(\"DK\"), // Denmark",
   c! "            224 => Some(\"ES\"), // Spain",
   c! "            225 => Some(\"ES\"), // Spain",
   c! "            226 => Some(\"FR\"), // France",
   c! "            227 => Some(\"FR\"), // France",
   c! "            228 => Some(\"FR\"), // France",
   c! "            229 => Some(\"MT\"), // Malta",
   c! "            230 => Some(\"FI\"), // Finland",
   c! "            231 => Some(\"FO\"), // Faroe Islands",
   c! "            232 => Some(\"GB\"), // United Kingdom of Great Britain and Northern Ireland",
   c! "            233 => Some(\"GB\"), // United Kingdom of Great Britain and Northern Ireland",
   c! "            234 => Some(\"GB\"), // United Kingdom of Great Britain and Northern Ireland",
   c! "            235 => Some(\"GB\"), // United Kingdom of Great Britain and Northern Ireland",
   c! "            236 => Some(\"GI\"), // Gibraltar",
   c! "            237 => Some(\"GR\"), // Greece",
   c! "            238 => Some(\"HR\"), // Croatia",
   c! "            239 => Some(\"GR\"), // Greece",
   c! "            240 => Some(\"GR\"), // Greece",
   c! "            241 => Some(\"GR\"), // Greece",
   c! "            242 => Some(\"MA\"), // Morocco",
   c! "            243 => Some(\"HU\"), // Hungary",
   c! "            244 => Some(\"NL\"), // Netherlands",
   c! "            245 => Some(\"NL\"), // Netherlands",
   c! "            246 => Some(\"NL\"), // Netherlands",
   c! "            247 => Some(\"IT\"), // Italy",
   c! "            248 => Some(\"MT\"), // Malta",
   c! "            249 => Some(\"MT\"), // Malta",
   c! "            250 => Some(\"IE\"), // Ireland",
   c! "            251 => Some(\"IS\"), // Iceland",
   c! "            252 => Some(\"LI\"), // Liechtenstein",
   c! "            253 => Some(\"LU\"), // Luxembourg",
   c! "            254 => Some(\"MC\"), // Monaco",
   c! "            255 => Some(\"PT\"), // Portugal",
   c! "            256 => Some(\"MT\"), // Malta",
   c! "            257 => Some(\"NO\"), // Norway",
   c! "            258 => Some(\"NO\"), // Norway",
   c! "            259 => Some(\"NO\"), // Norway",
   c! "            261 => Some(\"PL\"), // Poland",
   c! "            262 => Some(\"ME\"), // Montenegro",
   c! "            263 => Some(\"PT\"), // Portugal",
   c! "            264 => Some(\"RO\"), // Romania",
   c! "            265 => Some(\"SE\"), // Sweden",
   c! "            266 => Some(\"SE\"), // Sweden",
   c! "            267 => Some(\"SK\"), // Slovakia",
   c! "            268 => Some(\"SM\"), // San Marino",
   c! "            269 => Some(\"CH\"), // Switzerland",
   c! "            270 => Some(\"CZ\"), // Czechia",
   c! "            271 => Some(\"TR\"), // Turkey",
   c! "            272 => Some(\"UA\"), // Ukraine",
   c! "            273 => Some(\"RU\"), // Russian Federation",
   c! "            274 => Some(\"MK\"), // Republic of North Macedonia",
   c! "            275 => Some(\"LV\"), // Latvia",
   c! "            276 => Some(\"EE\"), // Estonia",
   c! "            277 => Some(\"LT\"), // Lithuania",
   c! "            278 => Some(\"SI\"), // Slovenia",
   c! "            279 => Some(\"RS\"), // Serbia",
   c! "            301 => Some(\"AI\"), // Anguilla",
   c! "            303 => Some(\"US\"), // United States of America",
   c! "            304 => Some(\"AG\"), // Antigua and Barbuda",
   c! "            305 => Some(\"AG\"), // Antigua and Barbuda",
   c! "            306 => Some(\"BQ\"), // Bonaire, Sint Eustatius and Saba",
   c! "//            306 => Some(\"CW\"), // Curaçao",
   c! "//            306 => Some(\"SX\"), // Sint Maarten",
   c! "            307 => Some(\"AW\"), // Aruba",
   c! "            308 => Some(\"BS\"), // Bahamas",
   c! "            309 => Some(\"BS\"), // Bahamas",
   c! "            310 => Some(\"BM\"), // Bermuda",
   c! "            311 => Some(\"BS\"), // Bahamas",
   c! "            312 => Some(\"BZ\"), // Belize",
   c! "            314 => Some(\"BB\"), // Barbados",
   c! "            316 => Some(\"CA\"), // Canada",
   c! "            319 => Some(\"KY\"), // Cayman Islands",
   c! "            321 => Some(\"CR\"), // Costa Rica",
   c! "            323 => Some(\"CU\"), // Cuba",
   c! "            325 => Some(\"DM\"), // Dominica",
   c! "            327 => Some(\"DO\"), // Dominican Republic",
   c! "            329 => Some(\"GP\"), // Guadeloupe",
   c! "            330 => Some(\"GD\"), // Grenada",
   c! "            331 => Some(\"GL\"), // Greenland",
   c! "            332 => Some(\"GT\"), // Guatemala",
   c! "            334 => Some(\"HN\"), // Honduras",
   c! "            336 => Some(\"HT\"), // Haiti",
   c! "            338 => Some(\"US\"), // United States of America",
   c! "            339 => Some(\"JM\"), // Jamaica",
   c! "            341 => Some(\"KN\"), // Saint Kitts and Nevis",
   c! "            343 => Some(\"LC\"), // Saint Lucia",
   c! "            345 => Some(\"MX\"), // Mexico",
   c! "            347 => Some(\"MQ\"), // Martinique",
   c! "            348 => Some(\"MS\"), // Montserrat",
   c! "            350 => Some(\"NI\"), // Nicaragua",
   c! "            351 => Some(\"PA\"), // Panama",
   c! "            352 => Some(\"PA\"), // Panama",
   c! "            353 => Some(\"PA\"), // Panama",
   c! "            354 => Some(\"PA\"), // Panama",
   c! "            355 => Some(\"PA\"), // Panama",
   c! "            356 => Some(\"PA\"), // Panama",
   c! "            357 => Some(\"PA\"), // Panama",
   c! "            358 => Some(\"PR\"), // Puerto Rico",
   c! "            359 => Some(\"SV\"), // El Salvador",
   c! "            361 => Some(\"PM\"), // Saint Pierre and Miquelon",
   c! "            362 => Some(\"TT\"), // Trinidad and Tobago",
   c! "            364 => Some(\"TC\"), // Turks and Caicos Islands",
   c! "            366 => Some(\"US\"), // United States of America",
   c! "            367 => Some(\"US\"), // United States of America",
   c! "            368 => Some(\"US\"), // United States of America",
   c! "            369 => Some(\"US\"), // United States of America",
   c! "            370 => Some(\"PA\"), // Panama",
   c! "            371 => Some(\"PA\"), // Panama",
   c! "            372 => Some(\"PA\"), // Panama",
   c! "            373 => Some(\"PA\"), // Panama",
   c! "            374 => Some(\"PA\"), // Panama",
   c! "            375 => Some(\"VC\"), // Saint Vincent and the Grenadines",
   c! "            376 => Some(\"VC\"), // Saint Vincent and the Grenadines",
   c! "            377 => Some(\"VC\"), // Saint Vincent and the Grenadines",
   c! "            378 => Some(\"VG\"), // British Virgin Islands",
   c! "            379 => Some(\"VI\"), // United States Virgin Islands",
   c! "            401 => Some(\"AF\"), // Afghanistan",
   c! "            403 => Some(\"SA\"), // Saudi Arabia",
   c! "            405 => Some(\"BD\"), // Bangladesh",
   c! "            408 => Some(\"BH\"), // Bahrain",
   c! "            410 => Some(\"BT\"), // Bhutan",
   c! "            412 => Some(\"CN\"), // China",
   c! "            413 => Some(\"CN\"), // China",
   c! "            414 => Some(\"CN\"), // China",
   c! "            416 => Some(\"TW\"), // Taiwan",
   c! "            417 => Some(\"LK\"), // Sri Lanka",
   c! "            419 => Some(\"IN\"), // India",
   c! "            422 => Some(\"IR\"), // Iran",
   c! "            423 => Some(\"AZ\"), // Azerbaijan",
   c! "            425 => Some(\"IQ\"), // Iraq",
   c! "            428 => Some(\"IL\"), // Israel",
   c! "            431 => Some(\"JP\"), // Japan",
   c! "            432 => Some(\"JP\"), // Japan",
   c! "            434 => Some(\"TM\"), // Turkmenistan",
   c! "            436 => Some(\"KZ\"), // Kazakhstan",
   c! "            437 => Some(\"UZ\"), // Uzbekistan",
   c! "            438 => Some(\"JO\"), // Jordan",
   c! "            440 => Some(\"KR\"), // Korea",
   c! "            441 => Some(\"KR\"), // Korea",
   c! "            443 => Some(\"PS\"), // Palestine, State of",
   c! "            445 => Some(\"KR\"), // Korea",
   c! "            447 => Some(\"KW\"), // Kuwait",
   c! "            450 => Some(\"LB\"), // Lebanon",
   c! "            451 => Some(\"KG\"), // Kyrgyzstan",
   c! "            453 => Some(\"MO\"), // Macao",
   c! "            455 => Some(\"MV\"), // Maldives",
   c! "            457 => Some(\"MN\"), // Mongolia",
   c! "            459 => Some(\"NP\"), // Nepal",
   c! "            461 => Some(\"OM\"), // Oman",
   c! "            463 => Some(\"PK\"), // Pakistan",
   c! "            466 => Some(\"QA\"), // Qatar",
   c! "            468 => Some(\"SY\"), // Syrian Arab Republic",
   c! "            470 => Some(\"AE\"), // United Arab Emirates",
   c! "            471 => Some(\"AE\"), // United Arab Emirates",
   c! "            472 => Some(\"TJ\"), // Tajikistan",
   c! "            473 => Some(\"YE\"), // Yemen",
   c! "            475 => Some(\"YE\"), // Yemen",
   c! "            477 => Some(\"HK\"), // Hong Kong",
   c! "            478 => Some(\"BA\"), // Bosnia and Herzegovina",
   c! "            501 => Some(\"TF\"), // French Southern Territories",
   c! "            503 => Some(\"AU\"), // Australia",
   c! "            506 => Some(\"MM\"), // Myanmar",
   c! "            508 => Some(\"BN\"), // Brunei Darussalam",
   c! "            510 => Some(\"FM\"), // Micronesia",
   c! "            511 => Some(\"PW\"), // Palau",
   c! "            512 => Some(\"NZ\"), // New Zealand",
   c! "            514 => Some(\"KH\"), // Cambodia",
   c! "            515 => Some(\"KH\"), // Cambodia",
   c! "            516 => Some(\"CX\"), // Christmas Island",
   c! "            518 => Some(\"CK\"), // Cook Islands",
   c! "            520 => Some(\"FJ\"), // Fiji",
   c! "            523 => Some(\"CC\"), // Cocos Islands",
   c! "            525 => Some(\"ID\"), // Indonesia",
   c! "            529 => Some(\"KI\"), // Kiribati",
   c! "            531 => Some(\"LA\"), // Lao People's Democratic Republic",
   c! "            533 => Some(\"MY\"), // Malaysia",
   c! "            536 => Some(\"MP\"), // Northern Mariana Islands",
   c! "            538 => Some(\"MH\"), // Marshall Islands",
   c! "            540 => Some(\"NC\"), // New Caledonia",
   c! "            542 => Some(\"NU\"), // Niue",
   c! "            544 => Some(\"NR\"), // Nauru",
   c! "            546 => Some(\"PF\"), // French Polynesia",
   c! "            548 => Some(\"PH\"), // Philippines",
   c! "            550 => Some(\"TL\"), // Timor-Leste",
   c! "            553 => Some(\"PG\"), // Papua New Guinea",
   c! "            555 => Some(\"PN\"), // Pitcairn",
   c! "            557 => Some(\"SB\"), // Solomon Islands",
   c! "            559 => Some(\"AS\"), // American Samoa",
   c! "            561 => Some(\"WS\"), // Samoa",
   c! "            563 => Some(\"SG\"), // Singapore",
   c! "            564 => Some(\"SG\"), // Singapore",
   c! "            565 => Some(\"SG\"), // Singapore",
   c! "            566 => Some(\"SG\"), // Singapore",
   c! "            567 => Some(\"TH\"), // Thailand",
   c! "            570 => Some(\"TO\"), // Tonga",
   c! "            572 => Some(\"TV\"), // Tuvalu",
   c! "            574 => Some(\"VN\"), // Viet Nam",
   c! "            576 => Some(\"VU\"), // Vanuatu",
   c! "            577 => Some(\"VU\"), // Vanuatu",
   c! "            578 => Some(\"WF\"), // Wallis and Futuna",
   c! "            601 => Some(\"ZA\"), // South Africa",
   c! "            603 => Some(\"AO\"), // Angola",
   c! "            605 => Some(\"DZ\"), // Algeria",
   c! "            607 => Some(\"TF\"), // French Southern Territories",
   c! "            608 => Some(\"SH\"), // Saint Helena, Ascension and Tristan da Cunha",
   c! "            609 => Some(\"BI\"), // Burundi",
   c! "            610 => Some(\"BJ\"), // Benin",
   c! "            611 => Some(\"BW\"), // Botswana",
   c! "            612 => Some(\"CF\"), // Central African Republic",
   c! "            613 => Some(\"CM\"), // Cameroon",
   c! "            615 => Some(\"CG\"), // Congo",
   c! "            616 => Some(\"KM\"), // Comoros",
   c! "            617 => Some(\"CV\"), // Cabo Verde",
   c! "            618 => Some(\"TF\"), // French Southern Territories",
   c! "            619 => Some(\"CI\"), // Côte d'Ivoire",
   c! "            620 => Some(\"KM\"), // Comoros",
   c! "            621 => Some(\"DJ\"), // Djibouti",
   c! "            622 => Some(\"EG\"), // Egypt",
   c! "            624 => Some(\"ET\"), // Ethiopia",
   c! "            625 => Some(\"ER\"), // Eritrea",
   c! "            626 => Some(\"GA\"), // Gabon",
   c! "            627 => Some(\"GH\"), // Ghana",
   c! "            629 => Some(\"GM\"), // Gambia",
   c! "            630 => Some(\"GW\"), // Guinea-Bissau",
   c! "            631 => Some(\"GQ\"), // Equatorial Guinea",
   c! "            632 => Some(\"GN\"), // Guinea",
   c! "            633 => Some(\"BF\"), // Burkina Faso",
   c! "            634 => Some(\"KE\"), // Kenya",
   c! "            635 => Some(\"TF\"), // French Southern Territories",
   c! "            636 => Some(\"LR\"), // Liberia",
   c! "            637 => Some(\"LR\"), // Liberia",
   c! "            638 => Some(\"SS\"), // South Sudan",
   c! "            642 => Some(\"LY\"), // Libya",
   c! "            644 => Some(\"LS\"), // Lesotho",
   c! "            645 => Some(\"MU\"), // Mauritius",
   c! "            647 => Some(\"MG\"), // Madagascar",
   c! "            649 => Some(\"ML\"), // Mali",
   c! "            650 => Some(\"MZ\"), // Mozambique",
   c! "            654 => Some(\"MR\"), // Mauritania",
   c! "            655 => Some(\"MW\"), // Malawi",
   c! "            656 => Some(\"NE\"), // Niger",
   c! "            657 => Some(\"NG\"), // Nigeria",
   c! "            659 => Some(\"NA\"), // Namibia",
   c! "            660 => Some(\"TF\"), // French Southern Territories",
   c! "            661 => Some(\"RW\"), // Rwanda",
   c! "            662 => Some(\"SD\"), // Sudan",
   c! "            663 => Some(\"SN\"), // Senegal",
   c! "            664 => Some(\"SC\"), // Seychelles",
   c! "            665 => Some(\"SH\"), // Saint Helena, Ascension and Tristan da Cunha",
   c! "            666 => Some(\"SO\"), // Somalia",
   c! "            667 => Some(\"SL\"), // Sierra Leone",
   c! "            668 => Some(\"ST\"), // Sao Tome and Principe",
   c! "            669 => Some(\"SZ\"), // Eswatini",
   c! "            670 => Some(\"TD\"), // Chad",
   c! "            671 => Some(\"TG\"), // Togo",
   c! "            672 => Some(\"TN\"), // Tunisia",
   c! "            674 => Some(\"TZ\"), // Tanzania, United Republic of",
   c! "            675 => Some(\"UG\"), // Uganda",
   c! "            676 => Some(\"CG\"), // Congo",
   c! "            677 => Some(\"TZ\"), // Tanzania, United Republic of",
   c! "            678 => Some(\"ZM\"), // Zambia",
   c! "            679 => Some(\"ZW\"), // Zimbabwe",
   c! "            701 => Some(\"AR\"), // Argentina",
   c! "            710 => Some(\"BR\"), // Brazil",
   c! "            720 => Some(\"BO\"), // Bolivia",
   c! "            725 => Some(\"CL\"), // Chile",
   c! "            730 => Some(\"CO\"), // Colombia",
   c! "            735 => Some(\"EC\"), // Ecuador",
   c! "            740 => Some(\"FK\"), // Falkland Islands [Malvinas]",
   c! "            745 => Some(\"GF\"), // French Guiana",
   c! "            750 => Some(\"GY\"), // Guyana",
   c! "            755 => Some(\"PY\"), // Paraguay",
   c! "            760 => Some(\"PE\"), // Peru",
   c! "            765 => Some(\"SR\"), // Suriname",
   c! "            770 => Some(\"UY\"), // Uruguay",
   c! "            775 => Some(\"VE\"), // Venezuela"]

/-- mid-to-iso3166.py:577, 619 `re.sub(r'( \(.*?\))', "", s)` on one line: a blank with an opening bracket, and what follows
up to the first closing bracket, is dropped. The flag says that the closing bracket is still to come. -/
def dropFrom : Bool → Str → Str
  | _, [] => []
  | true, c :: t => dropFrom (c != ')') t
  | false, c :: t =>
    if c = ' ' ∧ t.head? = some '(' ∧ ')' ∈ t then dropFrom true t else c :: dropFrom false t

/-- `re.sub(r'( \(.*?\))', "", s)`. -/
def dropBrackets (s : Str) : Str := dropFrom false s

/-- `str.replace(old, new)` of Python (`old` not empty): from left to right, without overlap. The counter is the number of
characters still to be skipped. -/
def replaceFrom (old new : Str) : Nat → Str → Str
  | _, [] => []
  | k + 1, _ :: t => replaceFrom old new k t
  | 0, c :: t =>
    if old.isPrefixOf (c :: t) then new ++ replaceFrom old new (old.length - 1) t else c :: replaceFrom old new 0 t

/-- `str.replace(old, new)`. -/
def replace (s : Str) (p : Str × Str) : Str := replaceFrom p.1 p.2 0 s

/-- mid-to-iso3166.py:578-615: the replacements in `MID`, in this order. -/
def midFixes : List (Str × Str) :=
  [(c! "France - Guiana", c! "French Guiana"),
   (c! "France - Wallis and Futuna Islands", c! "Wallis and Futuna"),
   (c! "France - Saint Paul and Amsterdam Islands", c! "French Southern Territories"),
   (c! "France - Kerguelen Islands", c! "French Southern Territories"),
   (c! "France - Crozet Archipelago", c! "French Southern Territories"),
   (c! "France - Reunion", c! "French Southern Territories"),
   (c! "France - Adelie Land", c! "French Southern Territories"),
   (c! "France - ", c! ""),
   (c! "Australia - ", c! ""),
   (c! "New Zealand - ", c! ""),
   (c! "China - ", c! ""),
   (c! "Denmark - ", c! ""),
   (c! "Netherlands - ", c! ""),
   (c! "United States of America - Alaska", c! "United States of America"),
   (c! "United States of America - ", c! ""),
   (c! "United Kingdom of Great Britain and Northern Ireland - Pitcairn Island", c! "Pitcairn"),
   (c! "United Kingdom of Great Britain and Northern Ireland - Falkland Islands", c! "Falkland Islands [Malvinas]"),
   (c! "United Kingdom of Great Britain and Northern Ireland - Saint Helena",
    c! "Saint Helena, Ascension and Tristan da Cunha"),
   (c! "United Kingdom of Great Britain and Northern Ireland - Ascension Island",
    c! "Saint Helena, Ascension and Tristan da Cunha"),
   (c! "United Kingdom of Great Britain and Northern Ireland - ", c! ""),
   (c! "Argentine Republic", c! "Argentina"),
   (c! "Democratic Republic of the Congo", c! "Congo"),
   (c! "Togolese Republic", c! "Togo"),
   (c! "Gabonese Republic", c! "Gabon"),
   (c! "Kyrgyz Republic", c! "Kyrgyzstan"),
   (c! "Democratic People's Republic of Korea", c! "Korea"),
   (c! "State of Palestine", c! "Palestine, State of"),
   (c! "Czech Republic", c! "Czechia"),
   (c! "Slovak Republic", c! "Slovakia"),
   (c! "Portugal - Madeira", c! "Portugal"),
   (c! "Portugal - Azores", c! "Portugal"),
   (c! "Tanzania", c! "Tanzania, United Republic of"),
   (c! "North Macedonia", c! "Republic of North Macedonia")]

/-- mid-to-iso3166.py:617-618: the replacements in `ISO_3166`. -/
def isoFixes : List (Str × Str) :=
  [(c! "Virgin Islands (U.S.)", c! "United States Virgin Islands"),
   (c! "Virgin Islands (British)", c! "British Virgin Islands")]

/-- mid-to-iso3166.py:577-615 for one line of `MID`. -/
def fixMid (s : Str) : Str := midFixes.foldl replace (dropBrackets s)

/-- mid-to-iso3166.py:617-619 for one line of `ISO_3166`. -/
def fixIso (s : Str) : Str := dropBrackets (isoFixes.foldl replace s)

/-- `\s` (ASCII). -/
def isBlank (c : Char) : Bool := c = ' ' || c = '\t' || c = '\n' || c = '\r' || c.toNat = 11 || c.toNat = 12

/-- `[A-Z]`. -/
def isCapital (c : Char) : Bool := 65 ≤ c.toNat && c.toNat ≤ 90

/-- `[0-9]`, and `\d` (ASCII). -/
def isFigure (c : Char) : Bool := 48 ≤ c.toNat && c.toNat ≤ 57

/-- `\s+` before something that is not blank. -/
def blanks : Str → Option Str
  | c :: t => if isBlank c then some (t.dropWhile isBlank) else none
  | [] => none

/-- mid-to-iso3166.py:626: the part `\s+([A-Z][A-Z])\s+([A-Z][A-Z][A-Z])\s+([0-9]+)\s*$` of the pattern; the result is
group 2. -/
def isoTail (s : Str) : Option Str := do
  match ← blanks s with
  | a :: b :: s =>
    guard (isCapital a && isCapital b)
    match ← blanks s with
    | x :: y :: z :: s =>
      guard (isCapital x && isCapital y && isCapital z)
      let s ← blanks s
      guard ((s.headD ' ') |> isFigure)
      guard ((s.dropWhile isFigure).all isBlank)
      return [a, b]
    | _ => none
  | _ => none

/-- mid-to-iso3166.py:626: the whole pattern; `(.*?)` is the shortest name with which the rest matches. The result is name
and code. -/
def isoEntry : Str → Option (Str × Str)
  | [] => none
  | c :: t =>
    match isoTail (c :: t) with
    | some code => some ([], code)
    | none => (isoEntry t).map fun (n, code) => (c :: n, code)

/-- mid-to-iso3166.py:635: the pattern `^(\d\d\d)\s+(.*)$`; digits and name. -/
def midEntry : Str → Option (Str × Str)
  | a :: b :: c :: t =>
    if isFigure a && isFigure b && isFigure c then (blanks t).map fun n => ([a, b, c], n) else none
  | _ => none

/-- `country_name_to_iso3166[name]`: a later assignment replaces an earlier one. -/
def codeOf (dict : List (Str × Str)) (name : Str) : Option Str := (dict.reverse.find? fun e => e.1 == name).map (·.2)

/-- mid-to-iso3166.py:624-630: the entries of the dictionary in the order in which they are made, and the lines printed. -/
def readIso (lines : List Str) : List (Str × Str) × List Str :=
  (lines.filterMap isoEntry,
   (lines.filter fun l => (isoEntry l).isNone && !l.isEmpty).map fun l => c! "Failed to parse: " ++ l)

/-- mid-to-iso3166.py:642-645: the line printed for an entry; the second and further entries with the same digits are
commented out. -/
def armLine (again : Bool) (digits code name : Str) : Str :=
  (if again then c! "//            " else c! "            ") ++ digits ++ c! " => Some(\"" ++ code ++ c! "\"), // " ++ name

/-- mid-to-iso3166.py:633-649: the lines printed by the second loop. -/
def arms (dict : List (Str × Str)) : Option Str → List Str → List Str
  | _, [] => []
  | prev, l :: ls =>
    match midEntry l with
    | none => arms dict prev ls
    | some (digits, name) =>
      match codeOf dict name with
      | some code => armLine (prev == some digits) digits code name :: arms dict (some digits) ls
      | none => [c! "Unmatching country: " ++ name]

/-- The script on any two tables: everything it prints. -/
def script (mid iso : List Str) : List Str :=
  let (dict, failures) := readIso iso
  failures ++ arms dict none mid

/-- mid-to-iso3166.py:26-321, 577-615: the lines of `MID` after the fixes. The text begins and ends with a newline. -/
def fixedMid : List Str := ([[]] ++ midLines ++ [[]]).map fixMid

/-- mid-to-iso3166.py:324-574, 617-621: the lines of `ISO_3166` after the fixes. -/
def fixedIso : List Str :=
  ([[]] ++ isoLines ++ [[]]).map fixIso ++ [c! "France - Reunion  RE ZZZ 000", c! "Vatican City State  VA ZZZ 000"]

/-- What the script prints. -/
def output : List Str := script fixedMid fixedIso

end Nmea.MidScript

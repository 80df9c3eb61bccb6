{"1": [], "2": [], "3": [false, true], "4": [false, false], "5": [true, true], "6": [false, true], "7": [false, false], "8": [true, true], "9": [true, false], "10": [true, false, true], "11": [true, false, false], "12": [true, true, true], "13": [false, false, true], "14": [false, false, false], "15": [false, true, true], "16": [false, true, false, false], "17": [false, true, true, false], "18": [false, false, true, false], "19": [false, false, false, false], "20": [true, true, true, true], "21": [true, true, false, true], "22": [true, false, false, true], "23": [true, false, false, false], "24": [true, false, true, false], "25": [false, true, false, true, false, true, true], "26": [true, true, false, true, true, true, true], "27": [true, false, true, true, true, false, false], "28": [true, true, true, true, false, true, true], "29": [true, true, false, true, false, true, false], "30": [true, false, true, true, false, false, false], "31": [true, false, false, true, false, true, true], "32": [true, false, true, false, false, true, false], "33": [true, false, false, false, false, true, false], "34": [true, false, true, false, false, false, false], "35": [false, false, false, true, false, false, true], "36": [false, false, false, true, true, false, true], "37": [false, false, true, true, true, false, false], "38": [false, true, false, false, false, true, true], "39": [true, true, true, false, true, true, true], "40": [false, true, true, false, false, true, true], "41": [true, true, true, false, false, true, false], "42": [false, false, false, false, false, false, true], "43": [false, false, true, false, false, false, false], "44": [false, true, false, false, false, false, true], "45": [false, true, true, false, true, false, false], "46": [false, true, true, false, true, false, true], "47": [false, true, false, true, true, true, false, true], "48": [false, false, false, true, false, false, false, false], "49": [false, false, true, true, true, true, false, true], "50": [false, false, false, true, false, false, false, true], "51": [true, true, true, true, true, true, false, true], "52": [true, false, false, true, false, false, false, true], "53": [true, false, true, true, false, true, false, true], "54": [true, false, true, true, true, false, false, true], "55": [true, true, false, true, false, true, false, true], "56": [true, false, false, true, true, false, false, true], "57": [true, true, true, true, false, true, false, true], "58": [true, false, false, true, false, true, false, true], "59": [true, true, false, true, true, true, false, true], "60": [true, false, true, true, false, false, false, true], "61": [true, false, true, false, false, false, false, true], "62": [true, true, false, false, false, true, false, true], "63": [true, true, true, false, true, true, false, true], "64": [true, true, true, false, true, false, false, true], "65": [false, true, false, true, true, true, true, true], "66": [false, false, true, true, false, true, true, true], "67": [false, true, true, true, true, false, true, true], "68": [false, false, true, true, false, false, true, true], "69": [false, true, false, false, false, false, true, true], "70": [false, false, false, false, false, false, true, false], "71": [false, true, false, false, true, false, true, true], "72": [false, true, true, false, true, false, true, true], "73": [false, false, true, false, true, false, false, true], "74": [false, true, true, false, true, false, false, true], "75": [true, false, true], "76": [false, false, false], "77": [true, false, false], "78": [false, false, false], "79": [true, true, true], "80": [false, true, false], "81": [false], "82": [true], "83": [true, false, true], "84": [true, false, false], "85": [false, false, true], "86": [false, false, false], "87": [true, true, true], "88": [false, true, false], "89": [true, true, false, true], "90": [true, false, false, true], "91": [false, true, true, true], "92": [false, false, true, true], "93": [true, true, true, true], "94": [true, false, true, true], "95": [false, true, true, true], "96": [false, false, true, true], "97": [true, true, false, false], "98": [false, true, false, false], "99": [true, false, true, true], "100": [true, true, false, true], "101": [false, true, true, true], "102": [false, true, false, true], "103": [true, true, true, false], "104": [true, true, false, false], "105": [false, false, true, true], "106": [false, true, false, false], "107": [true, false, false, true], "108": [true, false, false, false], "109": [false, false, false, true], "110": [false, false, false, false], "111": [false, true, true, false, false], "112": [false, false, true, false, false], "113": [false, true, true, true, false], "114": [false, false, true, true, false], "115": [true, true, true, false, false], "116": [true, false, true, false, false], "117": [true, false, false, false, true], "118": [true, false, false, false, false], "119": [true, true, false, false, false], "120": [true, true, false, false, true], "121": [false, true, false, false, false], "122": [false, false, false, false, false], "123": [true, true, true, true, false], "124": [true, true, false, true, false], "125": [true, false, true, true, true], "126": [true, false, false, true, false], "127": [true, true, true, false, true], "128": [true, true, false, false, false], "129": [true, true, true, false, false], "130": [true, false, false, false, false], "131": [false, true, false, true, true], "132": [false, true, true, true, true], "133": [false, false, false, true, false], "134": [false, false, true, true, true], "135": [false, true, false, false, false], "136": [false, true, true, false, true], "137": [false, true, false, false, true], "138": [false, false, true, false, true], "139": [true, false, true, false, false], "140": [true, false, true, false, true], "141": [false, false, true, false, false], "142": [false, false, false, false, true], "143": [true, false], "144": [false, false], "145": [false, false], "146": [true, true], "147": [false], "148": [true], "149": [true, false, false], "150": [true, true, false], "151": [false, false, false], "152": [false, true, false], "153": [false, false, false], "154": [false, true, false], "155": [true, true, true], "156": [true, false, false], "157": [true, true, true], "158": [false, false, false], "159": [false, true, true], "160": [true, true, false], "161": [false, true, false], "162": [true, false, true], "163": [false, false, true], "164": [true, true, false], "165": [false, true, false], "166": [true, true, true], "167": [false, true, true], "168": [true, true], "169": [false, false], "170": [false, false], "171": [true, false], "172": [true, false], "173": [false, true], "174": [], "175": [true], "176": [false], "177": [false, true], "178": [true, false], "179": [true, false], "180": [false, false], "181": [false, false], "182": [true, true], "183": [true, true], "184": [true, false], "185": [false, true], "186": [false, false], "187": [false, false], "188": [true, false], "189": [false, true], "190": [true, true], "191": [false, true], "192": [false, false], "193": [true, true], "194": [true, false], "195": [false, true, false], "196": [true, true, true], "197": [true, true, false], "198": [false, false, false], "199": [true, false, false], "200": [false, true, true], "201": [false, false, true], "202": [true, true, true], "203": [true, false, true], "204": [true, true, false], "205": [false, false, false], "206": [true, false, false], "207": [true, true, false, true], "208": [true, true, false, false], "209": [false, true, false, true], "210": [false, false, false, false], "211": [false, true, true, true], "212": [true, false, false, false], "213": [true, false, false, false], "214": [false, false, true, false], "215": [true, false, true], "216": [true, true, false], "217": [true, true, true], "218": [false, false, true], "219": [false, true, false], "220": [false, true, true], "221": [true, true, true, false], "222": [true, true, false, false], "223": [false, true, false, false], "224": [false, true, true, false], "225": [true, false, true, false], "226": [true, false, false, false], "227": [false, false, true, false], "228": [false, false, false, false], "229": [true, false, true, true], "230": [false, false, false, true]}